import Verif.Model.Scheduling
import Verif.Model.Rng
/-
scheduling_solver.rs: the backtracking search for schedulings.
Status output is not modelled; for progress publishing see Model/Depth.lean.
-/
namespace Wassign

/-- critical_set.rs:1-5 `CriticalSet`. -/
structure CriticalSet where
  preference : Nat
  data : List Nat
deriving DecidableEq, Repr, Inhabited

/-- scheduling_solver.rs:22-27 `SchedulingDecision`. -/
inductive Decision where
  | undecided
  | omitted
  | slot (s : Nat)
deriving DecidableEq, Repr, Inhabited

/-- scheduling_solver.rs:37-44 `SchedulingDecision::slot`. -/
def Decision.slot? : Decision → Option Nat
  | .slot s => some s
  | _ => none

/-- scheduling_solver.rs:29-35 `SchedulingSearchState`. -/
structure SearchState where
  decisions : List Decision
  slotMin : List Nat
  slotMax : List Nat
  slotCnt : List Nat
deriving DecidableEq, Repr, Inhabited

/-- scheduling_solver.rs:46-55 `SchedulingSearchState::new`. -/
def SearchState.new (nc ns : Nat) : SearchState :=
  ⟨List.replicate nc .undecided, List.replicate ns 0, List.replicate ns 0, List.replicate ns 0⟩

namespace Search

/-- scheduling_solver.rs:186-197: one element of a critical set; the accumulator is
(covered_slots, covered, missing). -/
def csStep (decisions : List Decision) (acc : List Bool × Nat × Nat) (e : Nat) :
    R (List Bool × Nat × Nat) := do
  let d ← idx decisions e "decisions[element]"
  match d with
  | .undecided => pure (acc.1, acc.2.1, acc.2.2 + 1)
  | .slot t => do
    let b ← idx acc.1 t "covered_slots[slot]"
    if b then pure acc else pure (acc.1.set t true, acc.2.1 + 1, acc.2.2)
  | .omitted => pure acc

/-- scheduling_solver.rs:182-202: the check of one critical set. -/
def csOk (i : InputData) (decisions : List Decision) (set : CriticalSet) : R Bool := do
  let st ← set.data.foldlM (csStep decisions) (List.replicate i.ns false, 0, 0)
  pure (!(decide (st.2.1 + st.2.2 < i.ns)))

/-- scheduling_solver.rs:175-205 `satisfies_critical_sets`. -/
def satCritical (i : InputData) (decisions : List Decision) (sets : List CriticalSet) : R Bool :=
  sets.allM (csOk i decisions)

/-- scheduling_solver.rs:227-231, 239-243, 253-257: the other side of a two-choice constraint. -/
def otherOf (c : Constraint) (choice : Nat) : R Nat :=
  if c.left = choice then c.otherChoice else pure c.left

/-- scheduling_solver.rs:258-262: the offset seen from the other choice. -/
def offsetOf (c : Constraint) (other : Nat) : R Int := do
  let off ← c.offset
  if other = c.left then chkI32 (-off) "-offset" else pure off

/-- scheduling_solver.rs:215-319: the loop body of `satisfies_scheduling_constraints`
(`false` = return false; `continue` and falling through = true). -/
def conOk (i : InputData) (choice : Nat) (slot : Option Nat) (st : SearchState) (c : Constraint) :
    R Bool :=
  match c.kind with
  | .choiceIsInSlot => do
      let t ← c.slot
      pure (slot == some t)
  | .choiceIsNotInSlot => do
      let t ← c.slot
      pure (slot != some t)
  | .choicesAreInSameSlot => do
      let o ← otherOf c choice
      let d ← idx st.decisions o "decisions[other]"
      pure (!(d != .undecided && d.slot? != slot))
  | .choicesAreNotInSameSlot => do
      let o ← otherOf c choice
      let d ← idx st.decisions o "decisions[other]"
      pure (!(d != .undecided && d.slot? == slot && slot.isSome))
  | .choicesHaveOffset => do
      let o ← otherOf c choice
      let off ← offsetOf c o
      let d ← idx st.decisions o "decisions[other]"
      if d != .undecided then
        match d.slot?, slot with
        | some os, some s => do
            let os' ← toI32 os "slot index must fit in i32"
            let s' ← toI32 s "slot index must fit in i32"
            if os' - s' != off then pure false
            else do
              let noff ← chkI32 (-off) "-offset"
              let minSlot := max 0 noff
              let n ← toI32 i.ns "slot count must fit in i32"
              let nm ← chkI32 (n - off) "slots - offset"
              let maxSlot := min n nm
              pure (!(decide (s' < minSlot) || decide (maxSlot ≤ s')))
        | none, none => pure true
        | _, _ => pure false
      else pure true
  | .slotHasLimitedSize =>
      if slot = some c.left then do
        let op ← c.limitOp
        match op with
        | .gt | .geq | .neq => pure true
        | _ => do
          let l ← c.limit
          let l' ← toI32 l "limit must fit in i32"
          let l'' := if op = .lt then l' - 1 else l'
          let cnt ← idx st.slotCnt c.left "slot_choice_count[slot]"
          let cnt' ← toI32 cnt "slot choice count must fit in i32"
          pure (!(decide (l'' - cnt' < 1)))
      else pure true
  | _ => panic' "Unknown scheduling type"

/-- scheduling_solver.rs:336-359 `check_slot_size_constraints`. -/
def checkSizes (i : InputData) (slot : Option Nat) (cnt : List Nat) : R Bool :=
  i.schedCons.allM (fun c =>
    if c.kind = .slotHasLimitedSize then do
      let n ← idx cnt c.left "slot_choice_count[left]"
      let n' ← addU32 n (if slot = some c.left then 1 else 0) "slot_choice_count + 1"
      let op ← c.limitOp
      let lim ← c.limit
      pure (op.test n' lim)
    else pure true)

/-- scheduling_solver.rs:322-328: number of decided choices. -/
def decidedCount (st : SearchState) : Nat := st.decisions.countP (fun d => d != .undecided)

/-- scheduling_solver.rs:207-334 `satisfies_scheduling_constraints`. -/
def satCons (i : InputData) (choice : Nat) (slot : Option Nat) (st : SearchState) : R Bool := do
  let ok ← (i.schedConsFor choice).allM (conOk i choice slot st)
  if ok then
    if decidedCount st + 1 = i.nc then checkSizes i slot st.slotCnt else pure true
  else pure false

/-- scheduling_solver.rs:361-372 `has_impossibilities`. -/
def hasImpossibilities (i : InputData) (st : SearchState) (avail : Nat) : R Bool :=
  anyRange i.ns (fun t => do
    let m ← idx st.slotMax t "slot_max"
    let sum ← addU32 avail m "available_max_push + slot_max"
    let n ← toU32 i.np "chooser count must fit in u32"
    pure (decide (sum < n)))

/-- scheduling_solver.rs:374-391 `calculate_critical_slots`. -/
def criticalSlots (i : InputData) (st : SearchState) (avail choice : Nat) : R (List (Option Nat)) := do
  let l ← (List.range i.ns).filterM (fun t => do
    let ch ← idx i.choices choice "choices[choice]"
    let a ← subU avail ch.max "available_max_push - max"
    let m ← idx st.slotMax t "slot_max"
    let sum ← addU32 a m "available_max_push - max + slot_max"
    let n ← toU32 i.np "chooser count must fit in u32"
    pure (decide (sum < n)))
  pure (l.map some)

/-- scheduling_solver.rs:417-430: is a slot a candidate. -/
def slotCandidate (i : InputData) (st : SearchState) (choice t : Nat) : R Bool := do
  let ch ← idx i.choices choice "choices[choice]"
  let m ← idx st.slotMin t "slot_min"
  let sum ← addU32 ch.min m "min + slot_min"
  let n ← toU32 i.np "chooser count must fit in u32"
  if n < sum then pure false else satCons i choice (some t) st

variable {σ : Type}

/-- scheduling_solver.rs:411-415: the omission candidate. -/
def omitCandidate (i : InputData) (st : SearchState) (choice : Nat) : R (List (Option Nat)) := do
  let ch ← idx i.choices choice "choices[choice]"
  if ch.isOptional then do
    let ok ← satCons i choice none st
    pure (if ok then [none] else [])
  else pure []

/-- scheduling_solver.rs:401-440 `calculate_feasible_slots`. `get_low_priority_slots` (451-453) is
constantly false, so only the omission is a low-priority candidate. -/
def feasibleSlots (g : RngOps σ) (rs : σ) (i : InputData) (st : SearchState) (choice : Nat) :
    R (List (Option Nat) × σ) := do
  let low ← omitCandidate i st choice
  let normal ← (List.range i.ns).filterM (slotCandidate i st choice)
  let keyed ← normal.mapM (fun t => do
    let m ← idx st.slotMax t "slot_max[slot]"
    pure (m, t))
  let sorted := isort (fun a b => decide (a.1 < b.1 ∨ (a.1 = b.1 ∧ a.2 ≤ b.2))) keyed
  riffleShuffle g rs (sorted.map (fun e => some e.2)) low

/-- scheduling_solver.rs:442-449 `get_choice_scramble`. -/
def choiceScramble (g : RngOps σ) (rs : σ) (i : InputData) : List Nat × σ :=
  let p := shuffleList g rs (List.range i.nc)
  (isort (fun a b => decide ((i.schedConsFor b).length ≤ (i.schedConsFor a).length)) p.1, p.2)

/-- scheduling_solver.rs:457-461: one decision of `convert_decisions`. -/
def convStep (res : List (List Nat)) (e : Decision × Nat) : R (List (List Nat)) :=
  match e.1 with
  | .slot t => do
    let l ← idx res t "result[slot]"
    pure (res.set t (l ++ [e.2]))
  | _ => pure res

/-- scheduling_solver.rs:455-463 `convert_decisions`. -/
def convertDecisions (i : InputData) (decisions : List Decision) : R (List (List Nat)) :=
  decisions.zipIdx.foldlM convStep (List.replicate i.ns [])

/-- scheduling_solver.rs:472-477, 492-497: remove a decided choice from the slot totals. -/
def removeFrom (i : InputData) (st : SearchState) (choice t : Nat) : R SearchState := do
  let ch ← idx i.choices choice "choices[choice]"
  let mn ← idx st.slotMin t "slot_min"
  let mn' ← subU mn ch.min "slot_min -= min"
  let mx ← idx st.slotMax t "slot_max"
  let mx' ← subU mx ch.max "slot_max -= max"
  let cn ← idx st.slotCnt t "slot_choice_count"
  let cn' ← subU cn 1 "slot_choice_count -= 1"
  pure { st with slotMin := st.slotMin.set t mn', slotMax := st.slotMax.set t mx',
                 slotCnt := st.slotCnt.set t cn' }

/-- scheduling_solver.rs:481-484: add a decided choice to the slot totals. -/
def addTo (i : InputData) (st : SearchState) (choice t : Nat) : R SearchState := do
  let ch ← idx i.choices choice "choices[choice]"
  let mn ← idx st.slotMin t "slot_min"
  let mn' ← addU32 mn ch.min "slot_min += min"
  let mx ← idx st.slotMax t "slot_max"
  let mx' ← addU32 mx ch.max "slot_max += max"
  let cn ← idx st.slotCnt t "slot_choice_count"
  let cn' ← addU32 cn 1 "slot_choice_count += 1"
  pure { st with slotMin := st.slotMin.set t mn', slotMax := st.slotMax.set t mx',
                 slotCnt := st.slotCnt.set t cn' }

/-- scheduling_solver.rs:465-489 `apply_decision`. -/
def applyDecision (i : InputData) (st : SearchState) (choice : Nat) (slot : Option Nat) :
    R SearchState := do
  let prev ← idx st.decisions choice "decisions[choice]"
  let st1 ← match prev with
    | .slot p => removeFrom i st choice p
    | _ => pure st
  match slot with
  | some t => do
    let st2 ← addTo i st1 choice t
    pure { st2 with decisions := st2.decisions.set choice (.slot t) }
  | none => pure { st1 with decisions := st1.decisions.set choice .omitted }

/-- scheduling_solver.rs:491-499 `clear_decision`. -/
def clearDecision (i : InputData) (st : SearchState) (choice : Nat) : R SearchState := do
  let prev ← idx st.decisions choice "decisions[choice]"
  let st1 ← match prev with
    | .slot p => removeFrom i st choice p
    | _ => pure st
  pure { st1 with decisions := st1.decisions.set choice .undecided }

/-- scheduling_solver.rs:513-517: `available_max_suffix`. -/
def maxSuffix (i : InputData) : List Nat → R (List Nat)
  | [] => pure [0]
  | c :: cs => do
    let rest ← maxSuffix i cs
    let r ← idx rest 0 "available_max_suffix[depth_index + 1]"
    let ch ← idx i.choices c "choices[choice]"
    let x ← addU32 r ch.max "available_max_suffix"
    pure (x :: rest)

/-- The loop variables of `solve_scheduling` (scheduling_solver.rs:509-512). -/
structure Machine (σ : Type) where
  depth : Nat
  bt : List (List (Option Nat))
  st : SearchState
  rng : σ

/-- scheduling_solver.rs:531-555: the candidates pushed at a new depth. -/
def candidates (g : RngOps σ) (i : InputData) (cs : List CriticalSet) (avail choice : Nat)
    (st : SearchState) (rs : σ) : R (List (Option Nat) × σ) := do
  let imp ← hasImpossibilities i st avail
  if imp then pure ([], rs)
  else do
    let okc ← satCritical i st.decisions cs
    if !okc then pure ([], rs)
    else do
      let crit ← criticalSlots i st avail choice
      match crit with
      | [] => feasibleSlots g rs i st choice
      | [t] => do
        let ok ← satCons i choice t st
        pure (if ok then [t] else [], rs)
      | _ :: _ :: _ => pure ([], rs)

/-- scheduling_solver.rs:529-557: push the candidates of a new depth. -/
def pushStep (g : RngOps σ) (i : InputData) (cs : List CriticalSet) (suffix : List Nat) (choice : Nat)
    (m : Machine σ) : R (Machine σ) :=
  if m.bt.length ≤ m.depth then do
    let avail ← idx suffix m.depth "available_max_suffix[depth]"
    let c ← candidates g i cs avail choice m.st m.rng
    pure { m with bt := m.bt ++ [c.1.reverse], rng := c.2 }
  else pure m

/-- The result of one iteration: go on, or leave the loop because depth 0 is exhausted. -/
inductive StepResult (σ : Type) where
  | next (m : Machine σ)
  | exhausted (rng : σ)

/-- scheduling_solver.rs:528-579: one iteration of the loop after the time check. -/
def iter (g : RngOps σ) (i : InputData) (cs : List CriticalSet) (scramble suffix : List Nat)
    (m : Machine σ) : R (StepResult σ) := do
  let choice ← idx scramble m.depth "choice_scramble[depth]"
  let m ← pushStep g i cs suffix choice m
  let bucket ← idx m.bt m.depth "backtracking[depth]"
  match bucket.getLast? with
  | none =>
    if m.depth = 0 then pure (.exhausted m.rng)
    else do
      let prev ← idx scramble (m.depth - 1) "choice_scramble[depth - 1]"
      let st ← clearDecision i m.st prev
      pure (.next { m with depth := m.depth - 1, bt := m.bt.dropLast, st := st })
  | some nextSlot => do
    let st ← applyDecision i m.st choice nextSlot
    pure (.next { m with depth := m.depth + 1, bt := m.bt.set m.depth bucket.dropLast, st := st })

/-- Why a search ended. `found`/`rejected`: a leaf was reached and the final check
(scheduling_solver.rs:582-592) accepted/refused it; `exhausted`: line 561; `timeout`: line 525.
All but `found` return an empty vector. -/
inductive Outcome where
  | found (slots : List (List Nat))
  | rejected (leaf : Scheduling)
  | exhausted
  | timeout
deriving DecidableEq, Repr

/-- scheduling_solver.rs:155-160, 583-588: slot lists back to a slot per choice. -/
def toScheduling (i : InputData) (slots : List (List Nat)) : R (List (Option Nat)) :=
  slots.zipIdx.foldlM (fun sch e =>
    e.1.foldlM (fun sch c => setIdx sch c (some e.2) "scheduling[choice]") sch)
    (List.replicate i.nc none)

/-- scheduling_solver.rs:582-592: the final check. -/
def finish (i : InputData) (st : SearchState) : R Outcome := do
  let result ← convertDecisions i st.decisions
  let d ← toScheduling i result
  let sch ← Scheduling.withData i d
  let ok ← schedFeasible i sch
  pure (if ok then .found result else .rejected sch)

/-- scheduling_solver.rs:519-592: the loop, with explicit fuel. `late k` says whether the time check
of iteration `k` finds the limit exceeded. Running out of fuel is a panic of the model; `C05` proves
that it cannot happen with the fuel used by `solve`. -/
def loop (g : RngOps σ) (i : InputData) (cs : List CriticalSet) (scramble suffix : List Nat)
    (late : Nat → Bool) : Nat → Nat → Machine σ → R (Outcome × σ)
  | 0, _, _ => panic' "out of fuel"
  | fuel + 1, k, m =>
    if m.depth < scramble.length then
      if late k then pure (.timeout, m.rng)
      else do
        match ← iter g i cs scramble suffix m with
        | .exhausted r => pure (.exhausted, r)
        | .next m' => loop g i cs scramble suffix late fuel (k + 1) m'
    else do
      let o ← finish i m.st
      pure (o, m.rng)

/-- A bound on the number of iterations needed from a fresh depth with `d` choices left. -/
def pend (ns : Nat) : Nat → Nat
  | 0 => 1
  | d + 1 => (ns + 1) * (pend ns d + 1) + 2

/-- scheduling_solver.rs:501-593 `solve_scheduling`. -/
def solve (g : RngOps σ) (i : InputData) (cs : List CriticalSet) (late : Nat → Bool) (rs : σ) :
    R (Outcome × σ) := do
  let (scramble, rs1) := choiceScramble g rs i
  let suffix ← maxSuffix i scramble
  loop g i cs scramble suffix late (pend i.ns i.nc + 1) 0
    ⟨0, [], SearchState.new i.nc i.ns, rs1⟩

/-- The vector returned by `solve_scheduling`. -/
def Outcome.slots : Outcome → List (List Nat)
  | .found l => l
  | _ => []

/-- scheduling_solver.rs:116-153: the loop over preference limits of `next_scheduling`, with fuel.
`sets limit` is `for_preference(limit)`; `late limit k` the time check. Returns the slots found. -/
def limitLoop (g : RngOps σ) (i : InputData) (sets : Nat → List CriticalSet)
    (late : Nat → Nat → Bool) : Nat → Nat → σ → R (Option (List (List Nat)) × σ)
  | 0, _, _ => panic' "out of fuel"
  | fuel + 1, limit, rs => do
    let o ← solve g i (sets limit) (late limit) rs
    if o.1.slots.isEmpty = false then pure (some o.1.slots, o.2)
    else if limit = i.maxPref then pure (none, o.2)
    else limitLoop g i sets late fuel (i.preferenceAfter limit) o.2

/-- scheduling_solver.rs:58 `PREF_RELAXATION`. -/
def prefRelaxation : Int := 10

/-- scheduling_solver.rs:98-167 `next_scheduling` followed by `scheduling()` (169-173): the new
scheduling if it returns true, `none` if it returns false. `bound` is
`critical_set_analysis.preference_bound()`. Every iteration but the last strictly increases the
limit within the levels, so `prefLevels.length + 2` is enough fuel (proved). -/
def nextScheduling (g : RngOps σ) (i : InputData) (bound : Nat) (sets : Nat → List CriticalSet)
    (late : Nat → Nat → Bool) (rs : σ) : R (Option Scheduling × σ) := do
  let r ← nextInRange g rs 0 prefRelaxation
  let limit := if r.1 = 0 then i.maxPref else bound
  let res ← limitLoop g i sets late (i.prefLevels.length + 2) limit r.2
  match res.1 with
  | none => pure (none, res.2)
  | some slots => do
    let d ← toScheduling i slots
    let sch ← Scheduling.withData i d
    pure (some sch, res.2)

end Search
end Wassign
