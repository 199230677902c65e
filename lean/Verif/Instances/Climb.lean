import Verif.Instances.Search
import Verif.Props.Hill
import Verif.Props.Threaded
import Verif.Props.Session
import Verif.Props.Counters
import Verif.Props.Lps
import Verif.Props.Single
/-
Concrete cases that meet the hypotheses of the theorems in Props/Hill, Props/Threaded and Props/Lps.
-/
namespace Wassign.Instances
open Spec Hill Threaded Wassign

/-- A computation that succeeds has a value. -/
theorem ok_of_isOk {α : Type} {x : R α} (h : x.isOk = true) : ∃ a, x = .ok a := by
  cases x with
  | ok a => exact ⟨a, rfl⟩
  | error e => cases h

/-! ### C16: the climb of `HillEx` -/

example : ∃ st', Hill.solve HillEx.prob HillEx.env false HillEx.start Ex.sch = .ok (.complete [some 0, some 1, some 1, some 0] Ex.asg, st') ∧
    (∃ sc0 sc, Score.le sc sc0 ∧ HillEx.prob.scoring.evaluate Ex.inp (.complete [some 0, some 1, some 1, some 0] Ex.asg) = .ok sc ∧
      HillEx.prob.scoring.evaluate Ex.inp (.complete Ex.sch [[0, 2], [0, 1], [0, 1]]) = .ok sc0) := by
  obtain ⟨st', h, _⟩ := HillEx.climbs
  refine ⟨st', h, ?_⟩
  rcases C16_never_worse HillEx.prob HillEx.env Ex.inp_wf Ex.inp_sizes Ex.counter_lawful (fun _ => True) HillEx.shaped false HillEx.start st'
    trivial Ex.sch AsgEx.sch_shape _ h with e | ⟨s', a, a0, t', sc0, sc, h1, h2, h3, _, h5, _, h7⟩
  · cases e
  · cases h3
    have : HillEx.env.asolve () Ex.sch = .ok (some [[0, 2], [0, 1], [0, 1]], ()) := by decide +kernel
    have h1' : HillEx.env.asolve () Ex.sch = .ok (some a0, t') := h1
    rw [this] at h1'
    cases h1'
    exact ⟨sc0, sc, h7, h5, h2⟩

example (st' : HState Nat Unit) (sol : Solution) (h : Hill.solve HillEx.prob HillEx.env false HillEx.start Ex.sch = .ok (sol, st')) : sol ≠ .invalid :=
  fun e => (C16_invalid_iff HillEx.prob HillEx.env Ex.inp_wf Ex.inp_sizes Ex.counter_lawful (fun _ => True) HillEx.shaped false HillEx.start st'
    trivial Ex.sch AsgEx.sch_shape sol h).1 e
    ⟨[[0, 2], [0, 1], [0, 1]], (), ⟨F32.ofU32 1, F32.ofU32 3⟩, by decide +kernel, by decide +kernel, by decide +kernel⟩

example (st' : HState Nat Unit) (sol : Solution) (h : Hill.solve HillEx.prob HillEx.env false HillEx.start Ex.sch = .ok (sol, st')) :=
  C16_announcements_improve HillEx.prob HillEx.env Ex.inp_wf Ex.inp_sizes Ex.counter_lawful (fun _ => True) HillEx.shaped false HillEx.start st'
    trivial Ex.sch AsgEx.sch_shape sol h

/-! ### C17, C18, C19 -/

/-- Bringing in the optional choice. -/
theorem oneMove : SingleMove Ex.inp Ex.sch [some 0, some 1, some 1, some 0] := by
  refine ⟨⟨rfl, ?_⟩, 3, by decide, by decide, ?_⟩
  · intro c t h
    match c with
    | 0 => simp [slotAt] at h; subst h; decide
    | 1 => simp [slotAt] at h; subst h; decide
    | 2 => simp [slotAt] at h; subst h; decide
    | 3 => simp [slotAt] at h; subst h; decide
    | c + 4 => simp [slotAt] at h
  · intro c h
    match c with
    | 0 => rfl
    | 1 => rfl
    | 2 => rfl
    | 3 => exact absurd rfl h
    | c + 4 => rfl

example := C17_moves_have_one_key Ex.inp Ex.sch _ AsgEx.sch_shape oneMove

def swapped : Scheduling × Nat := match swapNeighbor Ex.counter 4 Ex.inp Ex.sch 0 with
  | .ok r => r
  | .error _ => ([], 0)

example : swapped.1.Perm Ex.sch :=
  (C18_swap_permutes Ex.counter Ex.counter_lawful 4 Ex.inp Ex.sch swapped.1 AsgEx.sch_shape 0 swapped.2 (by decide +kernel)).2.1

def picked : List Scheduling × Nat := match pickNeighbors Ex.counter 4 3 Ex.inp Ex.sch 0 with
  | .ok r => r
  | .error _ => ([], 0)

theorem picked_ok : pickNeighbors Ex.counter 4 3 Ex.inp Ex.sch 0 = .ok (picked.1, picked.2) := by decide +kernel

example : 0 < picked.1.length ∧ picked.1.length ≤ 4 :=
  ⟨by decide +kernel, (C19_neighbors_feasible_partial Ex.counter Ex.counter_lawful 4 3 Ex.inp Ex.inp_wf Ex.inp_sizes Ex.sch AsgEx.sch_shape 0
    picked.2 picked.1 picked_ok).2.1⟩

/-- With `max_neighbors = 1` two neighbours are picked; the second one comes with the first. -/
example := C19_excess_is_companion Ex.counter Ex.counter_lawful 4 1 Ex.inp Ex.sch AsgEx.sch_shape 0 3
  [[some 0, some 1, some 1, some 0], Ex.sch] (by decide +kernel) (by decide)

/-! ### C20: two calls of `iterate` -/

def first : Nat × SState Nat Unit Nat := match Shotgun.iterate HillEx.prob ((ThEx.cfg false).env 0) false 1 (Shotgun.new 0 0 ()) with
  | .ok r => r
  | .error _ => (0, Shotgun.new 0 0 ())
def second : Nat × SState Nat Unit Nat := match Shotgun.iterate HillEx.prob ((ThEx.cfg false).env 0) false 3 first.2 with
  | .ok r => r
  | .error _ => (0, first.2)

theorem first_ok : Shotgun.iterate HillEx.prob ((ThEx.cfg false).env 0) false 1 (Shotgun.new 0 0 ()) = .ok first := by
  obtain ⟨a, h⟩ := ok_of_isOk (x := Shotgun.iterate HillEx.prob ((ThEx.cfg false).env 0) false 1 (Shotgun.new 0 0 ())) (by decide +kernel)
  unfold first; rw [h]
theorem second_ok : Shotgun.iterate HillEx.prob ((ThEx.cfg false).env 0) false 3 first.2 = .ok second := by
  obtain ⟨a, h⟩ := ok_of_isOk (x := Shotgun.iterate HillEx.prob ((ThEx.cfg false).env 0) false 3 first.2) (by decide +kernel)
  unfold second; rw [h]

theorem calls : Calls HillEx.prob ((ThEx.cfg false).env 0) false (Shotgun.new 0 0 ()) (0 + first.1 + second.1) second.2 :=
  .call (.call (.none _) first_ok) second_ok

example : first.1 = 1 ∧ second.1 = 1 ∧ second.2.progress.bestScore.isFinite = true := by decide +kernel

example := C20_best_of_all_iterations HillEx.prob ((ThEx.cfg false).env 0) (fun _ => True) (fun _ => True) ((ThEx.setup_ok false).worker 0 (by decide))
  false 0 0 () trivial trivial _ _ calls
example := C20_recorded_is_valid HillEx.prob ((ThEx.cfg false).env 0) (fun _ => True) (fun _ => True) ((ThEx.setup_ok false).worker 0 (by decide))
  (by decide) false 0 0 () trivial trivial _ _ calls

/-! ### C22: two polls of the events of the session `ThEx.final` -/

def evs : List Wassign.Event := (ThEx.final false).workers.flatMap (fun w => w.st.hill.events)

theorem evs_mode : OneMode false (announced ((([] : List (List Wassign.Event)) ++ [evs.take 3] ++ []).flatten ++ evs.drop 3)) := by
  have h : (announced ((([] : List (List Wassign.Event)) ++ [evs.take 3] ++ []).flatten ++ evs.drop 3)).all (fun x => !x.2.major.isNaN) = true := by
    decide +kernel
  intro x hx
  have := List.all_eq_true.1 h x hx
  unfold Score.InMode
  intro _; simpa using this

example := C22_never_worse 2 false [] (evs.take 3) [] (evs.drop 3) evs_mode

/-- The session has two workers; an event of a third one does not count. -/
example (e : Wassign.Event) (h : e.worker = 2) := C22_unknown_workers_ignored (freshProgress 2) e (by rw [h]; decide)

/-! ### C23 -/

/-- With `--any` the session is cancelled; whatever happens later, no iteration is started. -/
example (g' : Session Nat Unit Nat) (h : Run (ThEx.cfg true) (ThEx.final true) g') :=
  C23_at_most_current_iteration (ThEx.cfg true) (ThEx.final true) g' (by decide +kernel) h

/-- A session cancelled from outside while both workers are in an iteration. -/
def interrupted : Session Nat Unit Nat := { ThEx.exec (ThEx.cfg false) [0, 1] (start (ThEx.cfg false)) with cancelled := true }

example : interrupted.workers.map (·.phase) = [.run, .run] := by decide +kernel

example (n : Nat) (g' : Session Nat Unit Nat) (h : Moves (ThEx.cfg false) n interrupted g') : n ≤ 6 :=
  (C23_cancelled_session_ends (ThEx.cfg false) interrupted g' rfl n h).1

/-- One slot: four threads are asked for, one worker does one iteration. -/
example (g : Session Nat ASolver (Nat × Nat)) (h : Run (Main.setup SingleEx.ideal (SingleEx.prepared true) (SingleEx.eff true))
    (start (Main.setup SingleEx.ideal (SingleEx.prepared true) (SingleEx.eff true))) g) :=
  C23_single_slot (Main.setup SingleEx.ideal (SingleEx.prepared true) (SingleEx.eff true)) (by decide +kernel) (fun _ => rfl) g h

end Wassign.Instances
