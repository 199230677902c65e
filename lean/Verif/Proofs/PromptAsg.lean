import Verif.Proofs.AsgReach
/-
An assignment solver whose clock never strikes works like one without a deadline.
-/
namespace Wassign
open Spec Asg

/-- The same solver, without the count of clock readings. -/
def strip (sv : ASolver) : ASolver := { sv with ticks := 0 }

/-- The environment without the clock; the backend is always called as with a time limit. -/
def unclocked (env : AEnv) : AEnv := ⟨fun n f _ => env.backend n f true, env.late⟩

def stripR {α : Type} (r : R (α × ASolver)) : R (α × ASolver) := r.map (fun x => (x.1, strip x.2))

variable {pr : AProblem} {env : AEnv} {st : ScheduleState}

theorem solveWithLimit_strip (hq : ∀ n, env.late n = false) (limit : Nat) (sv : ASolver) :
    solveWithLimit pr (unclocked env) false st limit (strip sv) = stripR (solveWithLimit pr env true st limit sv) := by
  unfold solveWithLimit clock
  simp only [hq, if_true, Bool.false_eq_true, if_false]
  cases buildFlow pr st limit with
  | error e => rfl
  | ok f =>
    simp only [R.bind_ok]
    show (match env.backend (sv.lpCount + 1) f true with
      | none => _
      | some x => _) = stripR (match env.backend (sv.lpCount + 1) f true with
      | none => _
      | some x => _)
    cases env.backend (sv.lpCount + 1) f true with
    | none => rfl
    | some x =>
      simp only
      cases decode pr st { f with solution := x } with
      | error e => rfl
      | ok a => rfl

theorem binStep_strip (hq : ∀ n, env.late n = false) (levels : List Nat) (start : Nat) (b : Bin) (sv : ASolver) :
    binStep (solveWithLimit pr (unclocked env) false st) levels start b (strip sv) =
      (binStep (solveWithLimit pr env true st) levels start b sv).map (fun x => (x.1, x.2.1, strip x.2.2)) := by
  unfold binStep
  simp only
  cases idx levels (b.low + (b.high - b.low) / 2) "levels[mid]" with
  | error e => rfl
  | ok limit =>
    simp only [R.bind_ok]
    rw [solveWithLimit_strip hq]
    cases h : solveWithLimit pr env true st limit sv with
    | error e => rfl
    | ok r =>
      obtain ⟨r, sv'⟩ := r
      simp only [stripR, Except.map, R.bind_ok]
      cases r with
      | feasible a =>
        simp only
        split <;> rfl
      | infeasible => rfl
      | incomplete => rfl

theorem binLoop_strip (hq : ∀ n, env.late n = false) (levels : List Nat) (start : Nat) : ∀ (fuel : Nat) (b : Bin) (sv : ASolver),
    binLoop (solveWithLimit pr (unclocked env) false st) levels start fuel b (strip sv) =
      (binLoop (solveWithLimit pr env true st) levels start fuel b sv).map (fun x => x.map (fun y => (y.1, strip y.2))) := by
  intro fuel
  induction fuel with
  | zero =>
    intro b sv
    unfold binLoop
    split <;> rfl
  | succ n ih =>
    intro b sv
    unfold binLoop
    split
    · rw [binStep_strip hq]
      cases binStep (solveWithLimit pr env true st) levels start b sv with
      | error e => rfl
      | ok r =>
        obtain ⟨done, b', sv'⟩ := r
        simp only [Except.map, R.bind_ok]
        cases done with
        | true => rfl
        | false =>
          simp only [Bool.false_eq_true, if_false]
          rw [ih]; rfl
    · rfl

/-- With a clock that never strikes, solving with a deadline gives what solving without one gives. -/
theorem solveUntil_strip (hq : ∀ n, env.late n = false) (sv : ASolver) (s : Scheduling) :
    solveUntil pr (unclocked env) false (strip sv) s = stripR (solveUntil pr env true sv s) := by
  unfold solveUntil
  simp only
  have e1 : prepare pr (strip sv) s = prepare pr sv s := rfl
  rw [e1]
  cases prepare pr sv s with
  | error e => rfl
  | ok st =>
    simp only [R.bind_ok]
    have e2 : ({ strip sv with state := some st } : ASolver) = strip { sv with state := some st } := rfl
    rw [e2]
    generalize ({ sv with state := some st } : ASolver) = sv1
    have e3 : cachedFor (strip sv1) st.slots = cachedFor sv1 st.slots := rfl
    rw [e3]
    cases cachedFor sv1 st.slots with
    | some a => rfl
    | none =>
      simp only
      by_cases hg : pr.greedy = true
      · rw [if_pos hg, if_pos hg, solveWithLimit_strip hq]
        cases solveWithLimit pr env true st pr.input.maxPref sv1 with
        | error e => rfl
        | ok r =>
          obtain ⟨r, sv'⟩ := r
          cases r <;> rfl
      · rw [if_neg hg, if_neg hg]
        split
        · rfl
        · rw [binLoop_strip hq]
          cases binLoop (solveWithLimit pr env true st) pr.input.prefLevels (startIndex pr.input.prefLevels pr.bound)
              (pr.input.prefLevels.length + 1) ⟨startIndex pr.input.prefLevels pr.bound, pr.input.prefLevels.length - 1, none, true⟩ sv1 with
          | error e => rfl
          | ok r =>
            cases r with
            | none => rfl
            | some x =>
              obtain ⟨b, sv'⟩ := x
              simp only [Except.map, R.bind_ok, Option.map]
              unfold finish
              cases b.best with
              | none => rfl
              | some a =>
                simp only
                split <;> rfl

end Wassign
