import Verif.Props.Scoring
import Verif.Props.Rng
import Verif.Props.Search
/-
Concrete cases that meet the hypotheses of the theorems in Props/Scoring, Props/Rng and Props/Search. Every example applies the
theorem to the data of Examples.lean; the hypotheses are proved, not assumed.
-/
namespace Wassign.Instances
open Spec Search Wassign

theorem inRange : ∀ c t, slotAt Ex.sch c = some t → t < Ex.inp.ns := by
  intro c t h
  match c with
  | 0 => simp [slotAt, Ex.sch] at h; subst h; decide
  | 1 => simp [slotAt, Ex.sch] at h; subst h; decide
  | 2 => simp [slotAt, Ex.sch] at h; subst h; decide
  | 3 => simp [slotAt, Ex.sch] at h
  | c + 4 => simp [slotAt, Ex.sch] at h

theorem valid : Valid Ex.inp Ex.sch Ex.asg :=
  (C01_feasibility_exact Ex.inp Ex.inp_wf (by decide) Ex.sch Ex.asg Ex.shape true (by decide +kernel)).1 rfl

/-- C01: three choosers, two slots, an optional choice that is left out, five constraints. -/
example := C01_valid_passes Ex.scorer Ex.inp Ex.inp_wf Ex.inp_sizes Ex.sch Ex.asg Ex.shape inRange valid

/-- C02, for the scheduling of the example. -/
example := C02_scheduling_feasible_returns Ex.inp Ex.inp_wf.sched Ex.inp_sizes Ex.sch rfl inRange

/-! ### C05: a search that runs through its first turns -/

def scramble : List Nat × Nat := choiceScramble Ex.rng 5 Ex.inp
def suffix : List Nat := match maxSuffix Ex.inp scramble.1 with
  | .ok l => l
  | .error _ => []
/-- One turn with the critical set {0, 2}, and whether there is a next state. -/
def step (m : Machine Nat) : Machine Nat × Bool :=
  match iter Ex.rng Ex.inp [⟨0, [0, 2]⟩] scramble.1 suffix m with
  | .ok (.next m') => (m', true)
  | _ => (m, false)
/-- The state after `k` turns. -/
def turn : Nat → Machine Nat
  | 0 => ⟨0, [], SearchState.new Ex.inp.nc Ex.inp.ns, scramble.2⟩
  | k + 1 => (step (turn k)).1

theorem step_next {m : Machine Nat} (h : (step m).2 = true) : iter Ex.rng Ex.inp [⟨0, [0, 2]⟩] scramble.1 suffix m = .ok (.next (step m).1) := by
  unfold step at h ⊢
  split at h
  · rename_i m' e
    simp only [e]
  · cases h

/-- The first three turns go on, at depths 0, 1 and 2 of 4. -/
theorem turns : ∀ k < 3, (step (turn k)).2 = true ∧ (turn k).depth < Ex.inp.nc := by decide +kernel

example : 3 ≤ pend Ex.inp.ns Ex.inp.nc :=
  C05_iterations_bounded Ex.rng Ex.rng_lawful Ex.inp [⟨0, [0, 2]⟩] suffix 5 turn 3 rfl (fun k hk => (turns k hk).2)
    (fun k hk => step_next (turns k hk).1)

example := C05_fuel_irrelevant Ex.rng Ex.rng_lawful Ex.inp [⟨0, [0, 2]⟩] suffix (fun k => decide (7 < k)) 5 1000

/-! ### C13, C14: an input with critical sets -/

def analysis : Analysis := match Analysis.new Ex.inp true true with
  | .ok A => A
  | .error _ => ⟨[], [], 0⟩

theorem analysis_ok : Analysis.new Ex.inp true true = .ok analysis := by
  have h : (Analysis.new Ex.inp true true).isOk = true := by decide +kernel
  unfold analysis
  cases e : Analysis.new Ex.inp true true with
  | ok A => rfl
  | error f => rw [e] at h; cases h

/-- There is something to cover. -/
example : (analysis.forPreference 1).map (·.data) ≠ [] := by decide +kernel

example := C13_partial_decisions_pass Ex.inp Ex.inp_wf Ex.inp_sizes Ex.inp_levels true true analysis analysis_ok Ex.sch Ex.asg Ex.shape
  valid.onePerSlot inRange 1 (by decide)
  (by
    intro p c x _ hat hx
    rw [← attendsB_iff] at hat
    match p with
    | 0 =>
      have : c = 0 ∨ c = 2 := by simpa [attendsB, Ex.asg] using hat
      rcases this with rfl | rfl <;> (simp [pref, Ex.inp] at hx; omega)
    | 1 =>
      have : c = 0 ∨ c = 1 := by simpa [attendsB, Ex.asg] using hat
      rcases this with rfl | rfl <;> (simp [pref, Ex.inp] at hx; omega)
    | 2 =>
      have : c = 0 ∨ c = 2 := by simpa [attendsB, Ex.asg] using hat
      rcases this with rfl | rfl <;> (simp [pref, Ex.inp] at hx; omega)
    | p + 3 => simp [attendsB, Ex.asg] at hat)
  [.slot 0, .undecided, .slot 1, .undecided] rfl
  (by
    intro c d h hne
    match c with
    | 0 => simp at h; subst h; rfl
    | 1 => simp at h; exact absurd h.symm hne
    | 2 => simp at h; subst h; rfl
    | 3 => simp at h; exact absurd h.symm hne
    | c + 4 => simp at h)

example := C14_simplification_lossless Ex.inp Ex.inp_wf Ex.inp_sizes Ex.inp_levels true analysis analysis_ok 1 (by decide) Ex.sch

example := C14_lossless_for_decisions Ex.inp Ex.inp_wf Ex.inp_sizes Ex.inp_levels true analysis analysis_ok 1 (by decide)
  [.slot 0, .undecided, .slot 1, .undecided] rfl
  (by
    intro c t h
    match c with
    | 0 => simp at h; subst h; decide
    | 1 => simp at h
    | 2 => simp at h; subst h; decide
    | 3 => simp at h
    | c + 4 => simp at h)

/-! ### C39: three scores of the same mode -/

example : Score.le ⟨F32.ofU32 1, F32.ofU32 3⟩ ⟨F32.ofU32 4, F32.ofU32 1⟩ :=
  C39_transitive false ⟨F32.ofU32 1, F32.ofU32 3⟩ ⟨F32.ofU32 2, F32.ofU32 1⟩ ⟨F32.ofU32 4, F32.ofU32 1⟩
    (by unfold Score.InMode; decide +kernel) (by unfold Score.InMode; decide +kernel) (by unfold Score.InMode; decide +kernel)
    (by unfold Score.le; decide +kernel) (by unfold Score.le; decide +kernel)

/-! ### C42, C43, C44 -/

example := C42_riffle_interleaves Ex.rng_lawful 0 [1, 2, 3] [10, 20]
example := C42_riffle_keeps_order Ex.rng_lawful 0 1 [1, 2, 3] [10, 20] [10, 20, 1, 2, 3] (by decide +kernel)
example := C42_shuffle_perm Ex.rng_lawful 4 ["x", "y", "z"]
example := C43_next_in_range Ex.rng_lawful 3 (-5) 10 (by decide) (by decide) (by decide)
example := C43_all_values_possible (-5) 10 7 (by decide) (by decide) (by decide) (by decide) (by decide)
example := C44_worker_seeds_nodup 42 64 (by decide)

end Wassign.Instances
