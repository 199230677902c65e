import Verif.Model.SchedulingSolver
import Verif.Model.Float
import Verif.Model.Status
/-
The search depth that the user is shown (scheduling_solver.rs:98-167, 501-598, threaded_solver.rs:94-95, 205-257) and the
message beside the progress bar (status.rs:241-263).

The searches are those of `Model/SchedulingSolver.lean` with a log of what they publish. An entry of the log is the published
depth (before its conversion to `f32`) and, as a ghost, the decisions at that moment. `max_depth_reached` is only copied into
a field that is never read (shotgun_solver.rs:159, threaded_solver.rs:134-149) and is not modelled.
-/
namespace Wassign
namespace Search
variable {σ : Type}

/-- An entry of the log: the depth and (ghost) the decisions. -/
abbrev DepthLog := List (Nat × List Decision)

/-- scheduling_solver.rs:519-592: the loop, as `loop`, with what it publishes: at the head of the loop (520-522) and after a
step back (567-568) or forward (577-579). -/
def loopLog (g : RngOps σ) (i : InputData) (cs : List CriticalSet) (scramble suffix : List Nat)
    (late : Nat → Bool) : Nat → Nat → Machine σ → DepthLog × R (Outcome × σ)
  | 0, _, _ => ([], panic' "out of fuel")
  | fuel + 1, k, m =>
    if m.depth < scramble.length then
      if late k then ([(m.depth, m.st.decisions)], pure (.timeout, m.rng))
      else
        match iter g i cs scramble suffix m with
        | .error e => ([(m.depth, m.st.decisions)], .error e)
        | .ok (.exhausted r) => ([(m.depth, m.st.decisions)], pure (.exhausted, r))
        | .ok (.next m') =>
          let rest := loopLog g i cs scramble suffix late fuel (k + 1) m'
          ((m.depth, m.st.decisions) :: (m'.depth, m'.st.decisions) :: rest.1, rest.2)
    else ([], do
      let o ← finish i m.st
      pure (o, m.rng))

/-- scheduling_solver.rs:501-593 `solve_scheduling`, as `solve`. -/
def solveLog (g : RngOps σ) (i : InputData) (cs : List CriticalSet) (late : Nat → Bool) (rs : σ) :
    DepthLog × R (Outcome × σ) :=
  let (scramble, rs1) := choiceScramble g rs i
  match maxSuffix i scramble with
  | .error e => ([], .error e)
  | .ok suffix => loopLog g i cs scramble suffix late (pend i.ns i.nc + 1) 0
      ⟨0, [], SearchState.new i.nc i.ns, rs1⟩

/-- scheduling_solver.rs:116-153, as `limitLoop`: one log for every call of `solve_scheduling`. -/
def limitLog (g : RngOps σ) (i : InputData) (sets : Nat → List CriticalSet)
    (late : Nat → Nat → Bool) : Nat → Nat → σ → List DepthLog × R (Option (List (List Nat)) × σ)
  | 0, _, _ => ([], panic' "out of fuel")
  | fuel + 1, limit, rs =>
    let one := solveLog g i (sets limit) (late limit) rs
    match one.2 with
    | .error e => ([one.1], .error e)
    | .ok o =>
      if o.1.slots.isEmpty = false then ([one.1], pure (some o.1.slots, o.2))
      else if limit = i.maxPref then ([one.1], pure (none, o.2))
      else
        let rest := limitLog g i sets late fuel (i.preferenceAfter limit) o.2
        (one.1 :: rest.1, rest.2)

/-- What `next_scheduling` publishes. -/
structure NextLog where
  /-- by its searches, one after the other -/
  searches : List DepthLog
  /-- at its end -/
  last : Option Nat

/-- Everything published, in order. -/
def NextLog.published (l : NextLog) : List Nat := l.searches.flatten.map (·.1) ++ l.last.toList

/-- scheduling_solver.rs:98-167 `next_scheduling`, as `nextScheduling`; lines 163-164 publish the number of choices. -/
def nextLog (g : RngOps σ) (i : InputData) (bound : Nat) (sets : Nat → List CriticalSet)
    (late : Nat → Nat → Bool) (rs : σ) : NextLog × R (Option Scheduling × σ) :=
  match nextInRange g rs 0 prefRelaxation with
  | .error e => (⟨[], none⟩, .error e)
  | .ok r =>
    let limit := if r.1 = 0 then i.maxPref else bound
    let res := limitLog g i sets late (i.prefLevels.length + 2) limit r.2
    match res.2 with
    | .error e => (⟨res.1, none⟩, .error e)
    | .ok (none, r) => (⟨res.1, none⟩, pure (none, r))
    | .ok (some slots, r) =>
      match toScheduling i slots with
      | .error e => (⟨res.1, none⟩, .error e)
      | .ok d => (⟨res.1, some i.nc⟩, do
          let sch ← Scheduling.withData i d
          pure (some sch, r))

end Search

namespace Threaded

/-- scheduling_solver.rs:597, threaded_solver.rs:95, 257: `u16::try_from(n).map_or(f32::INFINITY, f32::from)`. -/
def ofU16 (n : Nat) : F32 := if n < 65536 then F32.ofU32 n else F32.infinity

/-- threaded_solver.rs:205-209: a published depth is entered for its worker; an unknown worker is ignored. An event is a worker
and a depth (scheduling_solver.rs:595-598). The fields of an event are entered independently of each other, so that the
depths are modelled apart from the other fields (`deliver`). -/
def deliverDepth (depths : List F32) (e : Nat × Nat) : List F32 :=
  if e.1 < depths.length then depths.set e.1 (ofU16 e.2) else depths

/-- threaded_solver.rs:96, 275-277: before the first event. -/
def freshDepths (n : Nat) : List F32 := List.replicate n 0#32

/-- threaded_solver.rs:192, 228, 251, 257: the depth shown. -/
def shownDepth (depths : List F32) : F32 := F32.div (depths.foldl F32.add 0#32) (ofU16 (max depths.length 1))

/-- threaded_solver.rs:94-95: the greatest depth shown. -/
def shownMax (i : InputData) : F32 := ofU16 i.nc

end Threaded

namespace Status
open Threaded

/-- status.rs:241-263: what the message beside the bar shows; `none` for a part that is left out. -/
structure Message where
  /-- the score; without one, "no solution yet" -/
  score : Option Score
  /-- the depth and the greatest depth -/
  depth : Option (F32 × F32)
  /-- iterations, assignments, integer programs -/
  counters : Option (Nat × Nat × Nat)

/-- status.rs:241-263 `format_solver_message`. -/
def messageOf (r : Report) (depth most : F32) : Message :=
  if r.bestScore.isFinite then ⟨some r.bestScore, none, some (r.iterations, r.assignments, r.lp)⟩
  else if r.lp = 0 ∧ r.iterations = 0 ∧ r.assignments = 0 then ⟨none, some (depth, most), none⟩
  else ⟨none, some (depth, most), some (r.iterations, r.assignments, r.lp)⟩

end Status
end Wassign
