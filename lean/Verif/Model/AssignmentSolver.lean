import Verif.Model.Scheduling
import Verif.Model.MipFlow
/-
assignment_solver.rs: the assignment stage for a fixed scheduling.
Status output is not modelled; `publish_lp` only reports the LP counter, which is part of the state.
-/
namespace Wassign

/-- assignment_solver.rs:21-27 `AssignmentScheduleState`. The `HashSet` is a list (only membership is
used). -/
structure ScheduleState where
  slots : List (Option Nat)
  bySlot : List (List Nat)
  covered : List Nat
  blocked : List (Nat × Nat)
deriving DecidableEq, Repr

/-- assignment_solver.rs:29-34 `CachedAssignment`. -/
structure CachedAssignment where
  slots : List (Option Nat)
  assignment : Assignment
  isOptimal : Bool
deriving DecidableEq, Repr

/-- assignment_solver.rs:36-41 `LimitSolveResult`. -/
inductive LimitResult where
  | feasible (a : Assignment)
  | infeasible
  | incomplete
deriving DecidableEq, Repr

/-- The parts of the problem and the options the assignment solver reads: assignment_solver.rs:13-14.
`cost` abstracts line 399-401, the f64 expression `(preference + 1)^exponent as i64`. -/
structure AProblem where
  input : InputData
  bound : Nat
  static : StaticData
  greedy : Bool
  cost : Nat → Int

/-- What the solver's environment decides: the MIP backend (mip_flow.rs:117-193; argument `n` is the number
of LP calls so far, so that it may answer the same question differently; the Boolean tells whether a time
limit is set) and the clock (`late n`: the answer to the n-th question whether the deadline has passed). -/
structure AEnv where
  backend : Nat → MipFlow → Bool → Option (List Int)
  late : Nat → Bool

/-- The mutable state of the solver: assignment_solver.rs:16-18, plus the number of clock readings. -/
structure ASolver where
  lpCount : Nat
  ticks : Nat
  state : Option ScheduleState
  cached : Option CachedAssignment

namespace ASolver

/-- assignment_solver.rs:55-62. -/
def new : ASolver := ⟨0, 0, none, none⟩

end ASolver

namespace Asg

/-- assignment_solver.rs:183-187 and 230-233: enter a choice into the lists and counters of its slot; the
accumulator is (scheduled_choices_by_slot, covered_choosers_by_slot). -/
def addChoice (i : InputData) (acc : List (List Nat) × List Nat) (slot : Option Nat) (c : Nat) :
    R (List (List Nat) × List Nat) :=
  match slot with
  | none => pure acc
  | some t => do
    let by' ← MipFlow.pushAt acc.1 t c "scheduled_choices_by_slot[slot]"
    let n ← idx acc.2 t "covered_choosers_by_slot[slot]"
    let ch ← idx i.choices c "choices[choice]"
    let n' ← addU32 n ch.min "covered_choosers_by_slot += min"
    pure (by', acc.2.set t n')

/-- assignment_solver.rs:182-188: one choice of `build_schedule_state_from_scratch`. -/
def scratchStep (i : InputData) (acc : List (List Nat) × List Nat) (e : Option Nat × Nat) :
    R (List (List Nat) × List Nat) := addChoice i acc e.1 e.2

/-- assignment_solver.rs:264-292: the edges one constraint blocks. -/
def blockedOf (i : InputData) (st : StaticData) (slots : List (Option Nat)) (bySlot : List (List Nat))
    (c : Constraint) : R (List (Nat × Nat)) :=
  match c.kind with
  | .chooserIsInChoice => do
    let y ← c.otherChoice
    let so ← idx slots y "slots_of_choices[constrained_choice]"
    match so with
    | none => pure []
    | some t => do
      let src ← st.chooserNode c.left t
      let choices ← idx bySlot t "scheduled_choices_by_slot[slot_index]"
      (choices.filter (fun x => x != y)).mapM (fun x => do
        let dst ← st.choiceNode x
        pure (src, dst))
  | .chooserIsNotInChoice => do
    let y ← c.otherChoice
    let dst ← st.choiceNode y
    (List.range i.ns).mapM (fun t => do
      let src ← st.chooserNode c.left t
      pure (src, dst))
  | .choicesHaveSameChoosers | .choosersHaveSameChoices => pure []
  | _ => panic' "This kind of constraint is not compatible with the min cost flow solver"

/-- assignment_solver.rs:254-296 `build_blocked_constraint_edges`. -/
def blockedEdges (i : InputData) (st : StaticData) (slots : List (Option Nat)) (bySlot : List (List Nat)) :
    R (List (Nat × Nat)) := do
  let ls ← st.constraints.mapM (blockedOf i st slots bySlot)
  pure ls.flatten

/-- assignment_solver.rs:173-199 `build_schedule_state_from_scratch`. -/
def fromScratch (pr : AProblem) (s : Scheduling) : R ScheduleState := do
  let i := pr.input
  let acc ← s.zipIdx.foldlM (scratchStep i) (List.replicate i.ns [], List.replicate i.ns 0)
  let b ← blockedEdges i pr.static s acc.1
  pure ⟨s, acc.1, acc.2, b⟩

/-- `Vec::swap_remove`: the last element takes the place of the removed one. -/
def swapRemove (l : List Nat) (k : Nat) : List Nat :=
  match l.getLast? with
  | none => l
  | some z => (l.set k z).dropLast

/-- assignment_solver.rs:221-226: remove the choice from its old slot's list. -/
def takeOut (l : List Nat) (c : Nat) : List Nat :=
  match l.findIdx? (fun x => x == c) with
  | some k => swapRemove l k
  | none => l

/-- assignment_solver.rs:220-228: take a choice out of the list and counter of its old slot. -/
def dropChoice (i : InputData) (acc : List (List Nat) × List Nat) (slot : Option Nat) (c : Nat) :
    R (List (List Nat) × List Nat) :=
  match slot with
  | none => pure acc
  | some t => do
    let l ← idx acc.1 t "scheduled_choices_by_slot[slot]"
    let n ← idx acc.2 t "covered_choosers_by_slot[slot]"
    let ch ← idx i.choices c "choices[choice]"
    let n' ← subU n ch.min "covered_choosers_by_slot -= min"
    pure (acc.1.set t (takeOut l c), acc.2.set t n')

/-- assignment_solver.rs:210-234: one choice of `update_schedule_state`. -/
def updateStep (i : InputData) (acc : List (List Nat) × List Nat) (e : (Option Nat × Option Nat) × Nat) :
    R (List (List Nat) × List Nat) :=
  if e.1.1 = e.1.2 then pure acc
  else do
    let acc1 ← dropChoice i acc e.1.1 e.2
    addChoice i acc1 e.1.2 e.2

/-- assignment_solver.rs:201-242 `update_schedule_state`. -/
def update (pr : AProblem) (prev : ScheduleState) (s : Scheduling) : R ScheduleState := do
  let acc ← (prev.slots.zip s).zipIdx.foldlM (updateStep pr.input) (prev.bySlot, prev.covered)
  let b ← blockedEdges pr.input pr.static s acc.1
  pure ⟨s, acc.1, acc.2, b⟩

/-- assignment_solver.rs:244-252 `prepare_schedule_state` (the caller stores the result). -/
def prepare (pr : AProblem) (sv : ASolver) (s : Scheduling) : R ScheduleState :=
  match sv.state with
  | some prev => update pr prev s
  | none => fromScratch pr s

/-- assignment_solver.rs:362-366: supplies of the chooser nodes. -/
def chooserSupplies (pr : AProblem) (f : MipFlow) : R MipFlow :=
  (List.range pr.input.np).foldlM (fun f p =>
    (List.range pr.input.ns).foldlM (fun f t => do
      let n ← pr.static.chooserNode p t
      f.setSupply n 1) f) f

/-- assignment_solver.rs:368-376: supplies of the scheduled choices. -/
def choiceSupply (pr : AProblem) (f : MipFlow) (e : Option Nat × Nat) : R MipFlow :=
  match e.1 with
  | none => pure f
  | some _ => do
    let n ← pr.static.choiceNode e.2
    let ch ← idx pr.input.choices e.2 "choices[choice]"
    let m ← toI32 ch.min "choice min must fit in i32"
    f.setSupply n (-m)

/-- assignment_solver.rs:378-385: supply of a slot node. -/
def slotSupply (pr : AProblem) (covered : List Nat) (f : MipFlow) (t : Nat) : R MipFlow := do
  let n ← pr.static.slotNode t
  let a ← toI32 pr.input.np "chooser count must fit in i32"
  let cv ← idx covered t "covered_choosers_by_slot[slot]"
  let b ← toI32 cv "covered chooser count must fit in i32"
  let d ← chkI32 (a - b) "chooser count - covered"
  let d' ← chkI32 (-d) "-(chooser count - covered)"
  f.setSupply n d'

/-- assignment_solver.rs:390-403: the edge from one chooser's slot node to one choice. -/
def choiceEdge (pr : AProblem) (blocked : List (Nat × Nat)) (limit p src : Nat) (f : MipFlow) (c : Nat) : R MipFlow := do
  let ch ← idx pr.input.choosers p "choosers[chooser]"
  let x ← idx ch.prefs c "preferences[choice]"
  if limit < x then pure f
  else do
    let dst ← pr.static.choiceNode c
    if blocked.contains (src, dst) then pure f
    else do
      let k ← edgeId src dst
      let r ← f.addKeyedEdge k src dst 1 (pr.cost x)
      pure r.1

/-- assignment_solver.rs:388-404: the edges of one chooser in one slot. -/
def slotEdges (pr : AProblem) (blocked : List (Nat × Nat)) (limit p : Nat) (f : MipFlow) (e : List Nat × Nat) : R MipFlow := do
  let src ← pr.static.chooserNode p e.2
  e.1.foldlM (choiceEdge pr blocked limit p src) f

/-- assignment_solver.rs:387-405: the edges of all choosers. -/
def chooserEdges (pr : AProblem) (st : ScheduleState) (blocked : List (Nat × Nat)) (limit : Nat) (f : MipFlow) : R MipFlow :=
  (List.range pr.input.np).foldlM (fun f p =>
    st.bySlot.zipIdx.foldlM (slotEdges pr blocked limit p) f) f

/-- assignment_solver.rs:407-422: the edge from a scheduled choice to its slot. -/
def widthEdge (pr : AProblem) (f : MipFlow) (e : Option Nat × Nat) : R MipFlow :=
  match e.1 with
  | none => pure f
  | some t => do
    let src ← pr.static.choiceNode e.2
    let dst ← pr.static.slotNode t
    let k ← edgeId src dst
    let ch ← idx pr.input.choices e.2 "choices[choice]"
    let w ← subU ch.max ch.min "max - min"
    let w' ← toI32 w "choice width must fit in i32"
    let r ← f.addKeyedEdge k src dst w' 0
    pure r.1

/-- assignment_solver.rs:312-321: one choice for a pair of choosers. -/
def pairGroup (pr : AProblem) (p q t : Nat) (f : MipFlow) (c : Nat) : R MipFlow := do
  let from1 ← pr.static.chooserNode p t
  let to1 ← pr.static.choiceNode c
  let from2 ← pr.static.chooserNode q t
  let to2 ← pr.static.choiceNode c
  let k1 ← edgeId from1 to1
  let k2 ← edgeId from2 to2
  pure (f.groupOrBlock [k1, k2])

/-- assignment_solver.rs:305-323: the groups of one constraint. -/
def pairGroups (pr : AProblem) (st : ScheduleState) (f : MipFlow) (c : Constraint) : R MipFlow :=
  if c.kind ≠ .choosersHaveSameChoices then pure f
  else do
    let q ← c.otherChooser
    (List.range pr.input.ns).foldlM (fun f t => do
      let choices ← idx st.bySlot t "scheduled_choices_by_slot[slot]"
      choices.foldlM (pairGroup pr c.left q t) f) f

/-- assignment_solver.rs:332-339: the edge keys of a dependency group for one chooser. -/
def depKeys (pr : AProblem) (st : ScheduleState) (p : Nat) (g : List Nat) : R (List Nat) := do
  let ks ← g.mapM (fun c => do
    let so ← idx st.slots c "slots_of_choices[choice]"
    match so with
    | none => pure none
    | some t => do
      let src ← pr.static.chooserNode p t
      let dst ← pr.static.choiceNode c
      let k ← edgeId src dst
      pure (some k))
  pure (ks.filterMap id)

/-- assignment_solver.rs:325-342: one dependency group. -/
def depGroup (pr : AProblem) (st : ScheduleState) (f : MipFlow) (g : List Nat) : R MipFlow :=
  if g.length = 1 then pure f
  else (List.range pr.input.np).foldlM (fun f p => do
    let ks ← depKeys pr st p g
    pure (f.groupOrBlock ks)) f

/-- assignment_solver.rs:298-343 `create_edge_groups`. -/
def edgeGroups (pr : AProblem) (st : ScheduleState) (f : MipFlow) : R MipFlow := do
  let f1 ← pr.input.asgCons.foldlM (pairGroups pr st) f
  pr.input.depGroups.foldlM (depGroup pr st) f1

/-- assignment_solver.rs:358-424: the flow problem for a preference limit. -/
def buildFlow (pr : AProblem) (st : ScheduleState) (limit : Nat) : R MipFlow := do
  let blocked := st.blocked ++ pr.static.blockedEdges
  let f1 ← chooserSupplies pr pr.static.baseFlow
  let f2 ← st.slots.zipIdx.foldlM (choiceSupply pr) f1
  let f3 ← (List.range pr.input.ns).foldlM (slotSupply pr st.covered) f2
  let f4 ← chooserEdges pr st blocked limit f3
  let f5 ← st.slots.zipIdx.foldlM (widthEdge pr) f4
  edgeGroups pr st f5

/-- assignment_solver.rs:454-460: the first choice of the slot whose edge carries flow. -/
def cellOf (pr : AProblem) (f : MipFlow) (src : Nat) : List Nat → R (Option Nat)
  | [] => pure none
  | c :: cs => do
    let dst ← pr.static.choiceNode c
    let k ← edgeId src dst
    let v ← f.solutionValueAt k
    if v = 1 then pure (some c) else cellOf pr f src cs

/-- assignment_solver.rs:450-470: the assignment read off the solved flow. -/
def decode (pr : AProblem) (st : ScheduleState) (f : MipFlow) : R Assignment := do
  let data ← (List.range pr.input.np).mapM (fun p =>
    (List.range pr.input.ns).mapM (fun t => do
      let src ← pr.static.chooserNode p t
      let choices ← idx st.bySlot t "scheduled_choices_by_slot[slot]"
      match ← cellOf pr f src choices with
      | some c => pure c
      | none => panic' "each chooser/slot must be assigned a choice"))
  Assignment.new pr.input data

/-- One clock reading: whether the deadline has passed. Without a deadline the clock is not consulted. -/
def clock (env : AEnv) (deadline : Bool) (sv : ASolver) : Bool × ASolver :=
  if deadline then (env.late sv.ticks, { sv with ticks := sv.ticks + 1 }) else (false, sv)

/-- assignment_solver.rs:345-471 `solve_with_limit` (mip_flow.rs:117-193 is the call of `env.backend`). -/
def solveWithLimit (pr : AProblem) (env : AEnv) (deadline : Bool) (st : ScheduleState) (limit : Nat)
    (sv : ASolver) : R (LimitResult × ASolver) :=
  let c1 := clock env deadline sv
  if c1.1 then pure (.incomplete, c1.2)
  else do
    let f ← buildFlow pr st limit
    let sv2 := { c1.2 with lpCount := c1.2.lpCount + 1 }
    let c2 := clock env deadline sv2
    if c2.1 then pure (.incomplete, c2.2)
    else
      match env.backend c2.2.lpCount f deadline with
      | none =>
        let c3 := clock env deadline c2.2
        pure (if c3.1 then .incomplete else .infeasible, c3.2)
      | some x => do
        let a ← decode pr st { f with solution := x }
        pure (.feasible a, c2.2)

/-- The state of the loop at assignment_solver.rs:112-148. -/
structure Bin where
  low : Nat
  high : Nat
  best : Option Assignment
  isOptimal : Bool
deriving DecidableEq, Repr

/-- assignment_solver.rs:117-148: one iteration; `attempt` is `solve_with_limit` on a level. The Boolean of
the result tells whether the loop is left by `break`. -/
def binStep {σ : Type} (attempt : Nat → σ → R (LimitResult × σ)) (levels : List Nat) (start : Nat)
    (b : Bin) (s : σ) : R (Bool × Bin × σ) := do
  let mid := b.low + (b.high - b.low) / 2
  let limit ← idx levels mid "levels[mid]"
  let r ← attempt limit s
  match r.1 with
  | .feasible a =>
    if mid = start then pure (true, { b with best := some a }, r.2)
    else pure (false, { b with best := some a, high := mid - 1 }, r.2)
  | .infeasible => pure (false, { b with low := mid + 1 }, r.2)
  | .incomplete => pure (false, { b with low := mid + 1, isOptimal := false }, r.2)

/-- assignment_solver.rs:117-148: the loop, with fuel; `none` means that the fuel ran out
(`C09_search_terminates` shows that it never does with enough fuel). -/
def binLoop {σ : Type} (attempt : Nat → σ → R (LimitResult × σ)) (levels : List Nat) (start : Nat) :
    Nat → Bin → σ → R (Option (Bin × σ))
  | 0, b, s => if b.low ≤ b.high then pure none else pure (some (b, s))
  | fuel + 1, b, s =>
    if b.low ≤ b.high then do
      let r ← binStep attempt levels start b s
      if r.1 then pure (some r.2) else binLoop attempt levels start fuel r.2.1 r.2.2
    else pure (some (b, s))

/-- assignment_solver.rs:78-81: where the search starts. -/
def startIndex (levels : List Nat) (bound : Nat) : Nat :=
  match levels.findIdx? (fun l => decide (bound ≤ l)) with
  | some k => k
  | none => levels.length - 1

/-- assignment_solver.rs:153-171 `finish_assignment_result`. -/
def finish (sv : ASolver) (a : Option Assignment) (slots : List (Option Nat)) (isOptimal : Bool) :
    Option Assignment × ASolver :=
  match a with
  | some a => (some a, if isOptimal then { sv with cached := some ⟨slots, a, isOptimal⟩ } else sv)
  | none => (none, sv)

/-- assignment_solver.rs:84-89: the cached assignment, if it is for this scheduling and conclusive. -/
def cachedFor (sv : ASolver) (slots : List (Option Nat)) : Option Assignment :=
  match sv.cached with
  | some c => if c.slots = slots ∧ c.isOptimal = true then some c.assignment else none
  | none => none

/-- assignment_solver.rs:71-151 `solve_until` (`solve` is the case without a deadline, lines 67-69). -/
def solveUntil (pr : AProblem) (env : AEnv) (deadline : Bool) (sv : ASolver) (s : Scheduling) :
    R (Option Assignment × ASolver) := do
  let levels := pr.input.prefLevels
  let start := startIndex levels pr.bound
  let st ← prepare pr sv s
  let sv := { sv with state := some st }
  match cachedFor sv st.slots with
  | some a => pure (some a, sv)
  | none =>
    if pr.greedy then do
      let r ← solveWithLimit pr env deadline st pr.input.maxPref sv
      match r.1 with
      | .feasible a => pure (finish r.2 (some a) st.slots true)
      | _ => pure (finish r.2 none st.slots false)
    else if levels.length = 0 then pure (none, sv)
    else do
      let r ← binLoop (solveWithLimit pr env deadline st) levels start (levels.length + 1)
        ⟨start, levels.length - 1, none, true⟩ sv
      match r with
      | none => panic' "model: out of fuel"
      | some (b, sv) => pure (finish sv b.best st.slots b.isOptimal)

end Asg
end Wassign
