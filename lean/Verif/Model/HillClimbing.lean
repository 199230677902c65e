import Verif.Model.Score
import Verif.Model.Rng
/-
hill_climbing_solver.rs: the local search around one scheduling, and the progress events of
shotgun_solver.rs:17-107 it publishes.
-/
namespace Wassign

/-- shotgun_solver.rs:17-26 `WorkerProgressEvent`. The display-only field `sched_depth` is left out. -/
structure Event where
  worker : Nat
  iterations : Option Nat
  assignments : Option Nat
  lp : Option Nat
  bestSolution : Option Solution
  bestScore : Option Score

namespace Event

/-- shotgun_solver.rs:56-66 `publish_iterations`. -/
def ofIterations (w n : Nat) : Event :=
  ⟨w, some n, none, none, none, none⟩

/-- shotgun_solver.rs:68-78 `publish_assignments`. -/
def ofAssignments (w n : Nat) : Event :=
  ⟨w, none, some n, none, none, none⟩

/-- shotgun_solver.rs:80-90 `publish_lp`. -/
def ofLp (w n : Nat) : Event :=
  ⟨w, none, none, some n, none, none⟩

/-- shotgun_solver.rs:92-102 `publish_best_solution`. -/
def ofBest (w : Nat) (sol : Solution) (score : Score) : Event :=
  ⟨w, none, none, none, some sol, some score⟩

/-- The announced solution and its score, if the event announces one (threaded_solver.rs:219-220). -/
def best? (e : Event) : Option (Solution × Score) :=
  match e.bestScore, e.bestSolution with
  | some sc, some sol => some (sol, sc)
  | _, _ => none

end Event

/-- What hill climbing reads of the problem and the options (hill_climbing_solver.rs:9-10). -/
structure HProblem where
  input : InputData
  scoring : Scoring
  maxNeighbors : Nat

/-- What surrounds a hill climbing solver. `asolve` is `AssignmentSolver::solve_until` for the given deadline
(any behaviour is allowed here), `lpOf` reads its LP counter, `late n` the answer to the n-th question whether the deadline has passed,
`draws` the number of draws after which the model calls the inner loop of hill_climbing_solver.rs:143-152
endless (that loop has no bound in the code). -/
structure HEnv (σ τ : Type) where
  worker : Nat
  rng : RngOps σ
  draws : Nat
  asolve : τ → Scheduling → R (Option Assignment × τ)
  late : Nat → Bool
  lpOf : τ → Nat

/-- hill_climbing_solver.rs:8-15: the mutable state; `events` are the messages sent so far (the sending end
of the channel), `ticks` the number of clock readings. -/
structure HState (σ τ : Type) where
  rng : σ
  asg : τ
  count : Nat
  ticks : Nat
  events : List Event

namespace Hill
variable {σ τ : Type}

/-- The derived order on `Option<usize>`: `a >= b`, with `None` smallest (hill_climbing_solver.rs:125). -/
def optGe : Option Nat → Option Nat → Bool
  | _, none => true
  | none, some _ => false
  | some a, some b => decide (b ≤ a)

/-- hill_climbing_solver.rs:103-105 `max_neighbor_key` (the product of two vector lengths; its overflow
of `usize` is not modelled). -/
def maxKey (i : InputData) : Nat := i.nc * i.ns

/-- hill_climbing_solver.rs:119-130 `neighbor`. -/
def neighbor (i : InputData) (s : Scheduling) (key : Nat) : R Scheduling :=
  if i.nc = 0 then panic' "attempt to divide by zero"
  else do
    let slot : Option Nat := if key / i.nc = 0 then none else some (key / i.nc - 1)
    let c := key % i.nc
    let cur ← slotOf s c
    let slot' : Option Nat := if optGe slot cur then
        (match slot with
          | some t => some (t + 1)
          | none => some 0)
      else slot
    let d ← setIdx s c slot' "data[choice]"
    Scheduling.withData i d

/-- hill_climbing_solver.rs:135-139, 144-148: a random index below `n`. -/
def drawIndex (g : RngOps σ) (rs : σ) (n : Nat) : R (Nat × σ) := do
  let m ← toI32 n "data length must fit in i32"
  let r ← nextInRange g rs 0 m
  if r.1 < 0 then panic' "random index must be non-negative" else pure (r.1.toNat, r.2)

/-- hill_climbing_solver.rs:143-152: draw until the index is not in the list; `draws` bounds how long the
model follows this loop. -/
def drawFresh (g : RngOps σ) (n : Nat) (used : List Nat) : Nat → σ → R (Nat × σ)
  | 0, _ => panic' "model: endless drawing"
  | k + 1, rs => do
    let r ← drawIndex g rs n
    if used.contains r.1 then drawFresh g n used k r.2 else pure r

/-- hill_climbing_solver.rs:142-154: the loop that lengthens the cycle; it cannot run more than `n / 2` times
(the fuel is never used up, `growCycle_total`). -/
def growCycle (g : RngOps σ) (draws n : Nat) : Nat → List Nat → σ → R (List Nat × σ)
  | 0, _, _ => panic' "model: out of fuel"
  | k + 1, cyc, rs => do
    let r ← nextInRange g rs 0 3
    if r.1 = 0 ∧ cyc.length < n / 2 then do
      let c ← drawFresh g n cyc draws r.2
      growCycle g draws n k (cyc ++ [c.1]) c.2
    else pure (cyc, r.2)

/-- hill_climbing_solver.rs:157-159: one swap of the carried value with an entry. -/
def rotStep (acc : Option Nat × List (Option Nat)) (k : Nat) : R (Option Nat × List (Option Nat)) := do
  let x ← idx acc.2 k "data[idx]"
  pure (x, acc.2.set k acc.1)

/-- hill_climbing_solver.rs:156-159: pass the values along the cycle. -/
def rotate (data : List (Option Nat)) (cyc : List Nat) : R (List (Option Nat)) :=
  match cyc.getLast? with
  | none => panic' "swap cycle must be non-empty"
  | some z => do
    let carry ← idx data z "data[last]"
    let r ← cyc.foldlM rotStep (carry, data)
    pure r.2

/-- hill_climbing_solver.rs:132-162 `random_swap_neighbor`. -/
def swapNeighbor (g : RngOps σ) (draws : Nat) (i : InputData) (s : Scheduling) (rs : σ) : R (Scheduling × σ) := do
  let first ← drawIndex g rs s.length
  let cyc ← growCycle g draws s.length (s.length / 2 + 1) [first.1] first.2
  let d ← rotate s cyc.1
  let s' ← Scheduling.withData i d
  pure (s', cyc.2)

/-- hill_climbing_solver.rs:165-166. -/
def addSwap (i : InputData) : Bool := decide (1 < i.nc) && decide (1 < i.ns)

/-- hill_climbing_solver.rs:193-196 and 206-209: a swap neighbour, kept if feasible. -/
def trySwap (g : RngOps σ) (draws : Nat) (i : InputData) (s : Scheduling) (res : List Scheduling) (rs : σ) :
    R (List Scheduling × σ) := do
  let w ← swapNeighbor g draws i s rs
  let ok ← schedFeasible i w.1
  pure (if ok then res ++ [w.1] else res, w.2)

/-- hill_climbing_solver.rs:178-198: the loop over the (shuffled) keys; `k` is `key_index`. -/
def moveLoop (g : RngOps σ) (draws maxN : Nat) (i : InputData) (s : Scheduling) :
    List Nat → Nat → List Scheduling → σ → R (List Scheduling × σ)
  | [], _, res, rs => pure (res, rs)
  | key :: ks, k, res, rs =>
    if maxN ≤ res.length then pure (res, rs)
    else if maxN * 32 < k then pure (res, rs)
    else do
      let n ← neighbor i s key
      let ok ← schedFeasible i n
      if !ok then moveLoop g draws maxN i s ks (k + 1) res rs
      else if addSwap i then do
        let w ← trySwap g draws i s (res ++ [n]) rs
        moveLoop g draws maxN i s ks (k + 1) w.1 w.2
      else moveLoop g draws maxN i s ks (k + 1) (res ++ [n]) rs

/-- hill_climbing_solver.rs:202-210: the loop that fills up with swap neighbours. -/
def fillLoop (g : RngOps σ) (draws maxN : Nat) (i : InputData) (s : Scheduling) :
    Nat → List Scheduling → σ → R (List Scheduling × σ)
  | 0, res, rs => pure (res, rs)
  | k + 1, res, rs =>
    if maxN ≤ res.length then pure (res, rs)
    else do
      let w ← trySwap g draws i s res rs
      fillLoop g draws maxN i s k w.1 w.2

/-- hill_climbing_solver.rs:164-214 `pick_neighbors`. -/
def pickNeighbors (g : RngOps σ) (draws maxN : Nat) (i : InputData) (s : Scheduling) (rs : σ) :
    R (List Scheduling × σ) := do
  let keys := List.range (maxKey i)
  let sh := if maxN < maxKey i then shuffleList g rs keys else (keys, rs)
  let r ← moveLoop g draws maxN i s sh.1 0 [] sh.2
  if addSwap i && decide (r.1.length < maxN) then
    fillLoop g draws maxN i s (min (maxN - r.1.length) (maxKey i) * 32) r.1 r.2
  else pure r

/-- A clock reading (hill_climbing_solver.rs:60, 71); without a deadline the clock is not asked. -/
def clock (env : HEnv σ τ) (deadline : Bool) (st : HState σ τ) : Bool × HState σ τ :=
  if deadline then (env.late st.ticks, { st with ticks := st.ticks + 1 }) else (false, st)

/-- Sending a message (shotgun_solver.rs:104-106). -/
def publish (st : HState σ τ) (e : Event) : HState σ τ := { st with events := st.events ++ [e] }

/-- assignment_solver.rs:426-427: while an assignment is sought, every LP is announced with the number it has among all LPs of the
worker. Here the announcements of one search are sent together when it has ended. -/
def lpEvents (worker before after : Nat) : List Event := (List.range' (before + 1) (after - before)).map (Event.ofLp worker)

/-- hill_climbing_solver.rs:107-117 `solve_assignment`, then `Solution::new` (solution.rs:26-38). -/
def solveAssignment (env : HEnv σ τ) (st : HState σ τ) (s : Scheduling) : R (Solution × HState σ τ) := do
  let r ← env.asolve st.asg s
  let st := { st with
    asg := r.2
    count := st.count + 1
    events := st.events ++ lpEvents env.worker (env.lpOf st.asg) (env.lpOf r.2) }
  let st := publish st (Event.ofAssignments env.worker st.count)
  match r.1 with
  | some a => pure (.complete s a, st)
  | none => pure (.scheduling s, st)

/-- The best solution so far and its score (hill_climbing_solver.rs:41, 49). -/
structure Best where
  sol : Solution
  score : Score

/-- hill_climbing_solver.rs:66-93: the loop over the neighbours. The result tells whether the function
returned because of the deadline (line 75) and whether a better neighbour was found. -/
def round (pr : HProblem) (env : HEnv σ τ) (deadline : Bool) :
    List Scheduling → Bool → Best → HState σ τ → R (Bool × Bool × Best × HState σ τ)
  | [], found, b, st => pure (false, found, b, st)
  | n :: ns, found, b, st =>
    let c := clock env deadline st
    if c.1 then pure (true, found, b, c.2)
    else do
      let r ← solveAssignment env c.2 n
      let sc ← pr.scoring.evaluate pr.input r.1
      if Score.lt sc b.score then
        round pr env deadline ns true ⟨r.1, sc⟩ (publish r.2 (Event.ofBest env.worker r.1 sc))
      else round pr env deadline ns found b r.2

/-- hill_climbing_solver.rs:66-70: the scheduling whose neighbours are taken. -/
def schedOf : Solution → R Scheduling
  | .complete s _ => pure s
  | .scheduling s => pure s
  | .invalid => panic' "solution requires scheduling"

/-- hill_climbing_solver.rs:59-98: the main loop, with fuel (`C16_climb_ends` shows that the fuel used below
is never exhausted). -/
def loop (pr : HProblem) (env : HEnv σ τ) (deadline : Bool) : Nat → Best → HState σ τ → R (Best × HState σ τ)
  | 0, _, _ => panic' "model: out of fuel"
  | k + 1, b, st =>
    let c := clock env deadline st
    if c.1 then pure (b, c.2)
    else do
      let s ← schedOf b.sol
      let ns ← pickNeighbors env.rng env.draws pr.maxNeighbors pr.input s c.2.rng
      let r ← round pr env deadline ns.1 false b { c.2 with rng := ns.2 }
      if r.1 then pure r.2.2
      else if r.2.1 then loop pr env deadline k r.2.2.1 r.2.2.2
      else pure r.2.2

/-- More rounds than there are scores: every round but the last improves the score. -/
def rounds : Nat := 2 ^ 64 + 1

/-- hill_climbing_solver.rs:36-101 `solve`. -/
def solve (pr : HProblem) (env : HEnv σ τ) (deadline : Bool) (st : HState σ τ) (s : Scheduling) :
    R (Solution × HState σ τ) := do
  let r ← solveAssignment env st s
  let sc ← pr.scoring.evaluate pr.input r.1
  if !sc.isFinite then pure (.invalid, r.2)
  else do
    let b ← loop pr env deadline rounds ⟨r.1, sc⟩ (publish r.2 (Event.ofBest env.worker r.1 sc))
    pure (b.1.sol, b.2)

end Hill
end Wassign
