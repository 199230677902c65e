import Verif.Spec.Rename
import Verif.Model.Main
import Verif.Model.Depth
/-
No solver function looks at a name: erasing all names does not change its result.
-/
namespace Wassign
open Spec

/-- A choice without its name. -/
def Choice.bare (c : Choice) : Choice := { c with name := [] }
/-- A chooser without its name. -/
def Chooser.bare (c : Chooser) : Chooser := { c with name := [] }
/-- An input without its names. -/
def InputData.bare (i : InputData) : InputData :=
  { i with
    choices := i.choices.map Choice.bare
    choosers := i.choosers.map Chooser.bare
    slots := List.replicate i.slots.length [] }

theorem bare_eq {d d' : InputData} (h : SameButNames d d') : d.bare = d'.bare := by
  obtain ⟨h1, h2, h3, h4, h5, h6, h7, h8, h9, h10⟩ := h
  have e2 : d.choices.map Choice.bare = d'.choices.map Choice.bare := by
    have : ∀ l : List Choice, l.map Choice.bare = (l.map Spec.Choice.facts).map (fun x => ⟨[], x.1, x.2.1, x.2.2.1, x.2.2.2⟩) := by
      intro l; rw [List.map_map]; rfl
    rw [this, this, h2]
  have e3 : d.choosers.map Chooser.bare = d'.choosers.map Chooser.bare := by
    have : ∀ l : List Chooser, l.map Chooser.bare = (l.map (·.prefs)).map (fun x => ⟨[], x⟩) := by
      intro l; rw [List.map_map]; rfl
    rw [this, this, h3]
  unfold InputData.bare
  rw [e2, e3, h1]
  cases d; cases d'
  simp_all

theorem idx_map {α β : Type} (f : α → β) (l : List α) (k : Nat) (s : String) :
    idx (l.map f) k s = (idx l k s >>= fun x => .ok (f x)) := by
  unfold idx
  rw [List.getElem?_map]
  cases l[k]? <;> rfl

@[simp] theorem bare_ns (i : InputData) : i.bare.ns = i.ns := by simp [InputData.bare, InputData.ns]
@[simp] theorem bare_nc (i : InputData) : i.bare.nc = i.nc := by simp [InputData.bare, InputData.nc]
@[simp] theorem bare_np (i : InputData) : i.bare.np = i.np := by simp [InputData.bare, InputData.np]
@[simp] theorem bare_slots (i : InputData) : i.bare.slots.length = i.slots.length := by simp [InputData.bare]
@[simp] theorem bare_choices (i : InputData) : i.bare.choices.length = i.choices.length := by simp [InputData.bare]
@[simp] theorem bare_choosers (i : InputData) : i.bare.choosers.length = i.choosers.length := by simp [InputData.bare]
@[simp] theorem bare_schedCons (i : InputData) : i.bare.schedCons = i.schedCons := rfl
@[simp] theorem bare_asgCons (i : InputData) : i.bare.asgCons = i.asgCons := rfl
@[simp] theorem bare_depGroups (i : InputData) : i.bare.depGroups = i.depGroups := rfl
@[simp] theorem bare_prefLevels (i : InputData) : i.bare.prefLevels = i.prefLevels := rfl
@[simp] theorem bare_maxPref (i : InputData) : i.bare.maxPref = i.maxPref := rfl
@[simp] theorem bare_preferenceAfter (i : InputData) : i.bare.preferenceAfter = i.preferenceAfter := rfl
@[simp] theorem bare_schedConsFor (i : InputData) : i.bare.schedConsFor = i.schedConsFor := rfl
@[simp] theorem choice_bare_min (c : Choice) : c.bare.min = c.min := rfl
@[simp] theorem choice_bare_max (c : Choice) : c.bare.max = c.max := rfl
@[simp] theorem choice_bare_opt (c : Choice) : c.bare.isOptional = c.isOptional := rfl
@[simp] theorem chooser_bare_prefs (c : Chooser) : c.bare.prefs = c.prefs := rfl
@[simp] theorem read_choice {β : Type} (i : InputData) (k : Nat) (s : String) (f : Choice → R β) :
    (idx i.bare.choices k s >>= f) = (idx i.choices k s >>= fun c => f c.bare) := by
  show (idx (i.choices.map _) k s >>= f) = _
  rw [idx_map]
  cases idx i.choices k s <;> rfl
@[simp] theorem read_chooser {β : Type} (i : InputData) (k : Nat) (s : String) (f : Chooser → R β) :
    (idx i.bare.choosers k s >>= f) = (idx i.choosers k s >>= fun c => f c.bare) := by
  show (idx (i.choosers.map _) k s >>= f) = _
  rw [idx_map]
  cases idx i.choosers k s <;> rfl

/-! ### Scheduling.lean, Score.lean -/

@[simp] theorem bare_withData (i : InputData) : Scheduling.withData i.bare = Scheduling.withData i := by
  funext d; simp only [Scheduling.withData, bare_nc]
@[simp] theorem bare_assignmentNew (i : InputData) : Assignment.new i.bare = Assignment.new i := by
  funext d; simp only [Assignment.new, bare_np, bare_ns]
@[simp] theorem bare_choosersOrdered (i : InputData) : choosersOrdered i.bare = choosersOrdered i := by
  funext a c; simp only [choosersOrdered, bare_np, bare_ns]
@[simp] theorem bare_choicesOrdered (i : InputData) : choicesOrdered i.bare = choicesOrdered i := by
  funext a c; simp only [choicesOrdered, bare_ns]
@[simp] theorem bare_isInChoice (i : InputData) : isInChoice i.bare = isInChoice i := by
  funext a p c; simp only [isInChoice, bare_ns]
@[simp] theorem bare_schedConOk (i : InputData) : schedConOk i.bare = schedConOk i := by
  funext s c; simp only [schedConOk, bare_nc]
@[simp] theorem bare_satSched (i : InputData) : satSched i.bare = satSched i := by
  funext s; simp only [satSched, bare_schedCons, bare_schedConOk]
@[simp] theorem bare_asgConOk (i : InputData) : asgConOk i.bare = asgConOk i := by
  funext s a c; simp only [asgConOk, bare_choosersOrdered, bare_choicesOrdered, bare_isInChoice]
@[simp] theorem bare_satAsg (i : InputData) : satAsg i.bare = satAsg i := by
  funext s a; simp only [satAsg, bare_asgCons, bare_asgConOk]
@[simp] theorem bare_schedSums (i : InputData) : schedSums i.bare = schedSums i := by
  funext s; simp only [schedSums, bare_ns, read_choice, choice_bare_min, choice_bare_max, choice_bare_opt]; rfl
@[simp] theorem bare_schedFeasible (i : InputData) : schedFeasible i.bare = schedFeasible i := by
  funext s; simp only [schedFeasible, bare_ns, bare_np, bare_schedSums, bare_satSched]
@[simp] theorem bare_attend (i : InputData) : Scoring.attend i.bare = Scoring.attend i := by
  funext s a; simp only [Scoring.attend, bare_ns, bare_np, bare_nc]
@[simp] theorem bare_isFeasibleC (i : InputData) : Scoring.isFeasibleC i.bare = Scoring.isFeasibleC i := by
  funext s a; simp only [Scoring.isFeasibleC, bare_nc, bare_satSched, bare_satAsg, bare_attend, read_choice, choice_bare_min, choice_bare_max]; rfl
@[simp] theorem bare_cellPref (i : InputData) : Scoring.cellPref i.bare = Scoring.cellPref i := by
  funext a p k; simp only [Scoring.cellPref, read_chooser, chooser_bare_prefs]
@[simp] theorem bare_evaluateMajor (i : InputData) : Scoring.evaluateMajor i.bare = Scoring.evaluateMajor i := by
  funext a; simp only [Scoring.evaluateMajor, bare_np, bare_ns, bare_cellPref]
@[simp] theorem bare_prefCounts (i : InputData) : Scoring.prefCounts i.bare = Scoring.prefCounts i := by
  funext a; simp only [Scoring.prefCounts, bare_np, bare_ns, bare_cellPref, bare_maxPref]
@[simp] theorem bare_evaluate (sc : Scoring) (i : InputData) : sc.evaluate i.bare = sc.evaluate i := by
  funext sol
  simp only [Scoring.evaluate, Scoring.majorPart, Scoring.evaluateMinor, bare_evaluateMajor, bare_isFeasibleC, bare_prefCounts]

/-! ### CriticalSets.lean, MipFlow.lean -/

theorem bare_analysis (i : InputData) (a s : Bool) : Analysis.new i.bare a s = Analysis.new i a s := by
  have h1 : Critical.addChoice i.bare = Critical.addChoice i := by
    funext prefs pref acc c
    simp only [Critical.addChoice, read_choice, choice_bare_min]
  have h2 : Critical.addChooser i.bare = Critical.addChooser i := by
    funext pref sets p
    simp only [Critical.addChooser, Critical.chooserSlots, read_chooser, chooser_bare_prefs, h1, bare_nc, bare_np, bare_ns]
  have h3 : Critical.bound i.bare = Critical.bound i := by
    funext sets
    have : Critical.boundStep i.bare = Critical.boundStep i := by
      funext sets b l; simp only [Critical.boundStep, bare_ns]
    simp only [Critical.bound, this, bare_prefLevels, bare_maxPref]
  simp only [Analysis.new, Critical.analyze, Critical.collect, Critical.buildCache, h2, h3, bare_prefLevels, bare_np]

theorem bare_static (i : InputData) : StaticData.new i.bare = StaticData.new i := by
  simp only [StaticData.new, bare_np, bare_nc, bare_ns, bare_asgCons]

/-! ### SchedulingSolver.lean -/

namespace Search
variable {σ : Type}

@[simp] theorem bare_satCons (i : InputData) : satCons i.bare = satCons i := by
  have h1 : conOk i.bare = conOk i := by funext c sl st x; simp only [conOk, bare_ns]
  have h2 : checkSizes i.bare = checkSizes i := by funext sl cnt; simp only [checkSizes, bare_schedCons]
  funext c sl st
  simp only [satCons, h1, h2, bare_schedConsFor, bare_nc]

@[simp] theorem bare_candidates (g : RngOps σ) (i : InputData) : candidates g i.bare = candidates g i := by
  have h1 : hasImpossibilities i.bare = hasImpossibilities i := by funext st a; simp only [hasImpossibilities, bare_ns, bare_np]
  have h2 : satCritical i.bare = satCritical i := by
    have : csOk i.bare = csOk i := by funext d s; simp only [csOk, bare_ns]
    funext d s; simp only [satCritical, this]
  have h3 : criticalSlots i.bare = criticalSlots i := by
    funext st a c; simp only [criticalSlots, bare_ns, bare_np, read_choice, choice_bare_max]
  have h4 : slotCandidate i.bare = slotCandidate i := by
    funext st c t; simp only [slotCandidate, bare_np, read_choice, choice_bare_min, bare_satCons]
  have h5 : omitCandidate i.bare = omitCandidate i := by
    funext st c; simp only [omitCandidate, read_choice, choice_bare_opt, bare_satCons]; rfl
  have h6 : ∀ rs, feasibleSlots g rs i.bare = feasibleSlots g rs i := by
    intro rs; funext st c; simp only [feasibleSlots, h4, h5, bare_ns]
  funext cs a c st rs
  simp only [candidates, h1, h2, h3, h6, bare_satCons]

@[simp] theorem bare_clearDecision (i : InputData) : clearDecision i.bare = clearDecision i := by
  have h1 : removeFrom i.bare = removeFrom i := by
    funext st c t; simp only [removeFrom, read_choice, choice_bare_min, choice_bare_max]
  funext st c; simp only [clearDecision, h1]

@[simp] theorem bare_applyDecision (i : InputData) : applyDecision i.bare = applyDecision i := by
  have h1 : removeFrom i.bare = removeFrom i := by
    funext st c t; simp only [removeFrom, read_choice, choice_bare_min, choice_bare_max]
  have h2 : addTo i.bare = addTo i := by
    funext st c t; simp only [addTo, read_choice, choice_bare_min, choice_bare_max]
  funext st c t; simp only [applyDecision, h1, h2]

@[simp] theorem bare_maxSuffix (i : InputData) : maxSuffix i.bare = maxSuffix i := by
  funext l
  induction l with
  | nil => rfl
  | cons c cs ih => simp only [maxSuffix, ih, read_choice, choice_bare_max]

@[simp] theorem bare_iter (g : RngOps σ) (i : InputData) : iter g i.bare = iter g i := by
  have h1 : pushStep g i.bare = pushStep g i := by
    funext cs su c m; simp only [pushStep, bare_candidates]
  funext cs sc su m
  simp only [iter, h1, bare_clearDecision, bare_applyDecision]

@[simp] theorem bare_toScheduling (i : InputData) : toScheduling i.bare = toScheduling i := by
  funext s; simp only [toScheduling, bare_nc]

@[simp] theorem bare_finish (i : InputData) : finish i.bare = finish i := by
  have h1 : convertDecisions i.bare = convertDecisions i := by funext d; simp only [convertDecisions, bare_ns]
  funext st; simp only [finish, h1, bare_toScheduling, bare_withData, bare_schedFeasible]

@[simp] theorem bare_loop (g : RngOps σ) (i : InputData) (cs : List CriticalSet) (sc su : List Nat) (late : Nat → Bool) :
    loop g i.bare cs sc su late = loop g i cs sc su late := by
  funext fuel
  induction fuel with
  | zero => rfl
  | succ fuel ih => funext k m; simp only [loop, bare_iter, bare_finish, ih]

@[simp] theorem bare_solve (g : RngOps σ) (i : InputData) : solve g i.bare = solve g i := by
  have h1 : ∀ rs, choiceScramble g rs i.bare = choiceScramble g rs i := by
    intro rs; simp only [choiceScramble, bare_nc, bare_schedConsFor]; rfl
  funext cs late rs
  simp only [solve, h1, bare_maxSuffix, bare_loop, bare_ns, bare_nc]

@[simp] theorem bare_limitLoop (g : RngOps σ) (i : InputData) (sets : Nat → List CriticalSet) (late : Nat → Nat → Bool) :
    limitLoop g i.bare sets late = limitLoop g i sets late := by
  funext fuel
  induction fuel with
  | zero => rfl
  | succ fuel ih => funext l rs; simp only [limitLoop, bare_solve, bare_maxPref, bare_preferenceAfter, ih]

@[simp] theorem bare_nextScheduling (g : RngOps σ) (i : InputData) : nextScheduling g i.bare = nextScheduling g i := by
  funext b sets late rs
  simp only [nextScheduling, bare_limitLoop, bare_maxPref, bare_prefLevels, bare_toScheduling, bare_withData]

end Search

theorem bare_source {σ : Type} (g : RngOps σ) (i : InputData) : source g i.bare = source g i := by
  funext t b sets late r
  simp only [source, Search.bare_nextScheduling, bare_maxPref]

/-! ### AssignmentSolver.lean -/

/-- The assignment problem without names. -/
def AProblem.bare (pr : AProblem) : AProblem := { pr with input := pr.input.bare }

namespace Asg

theorem bare_addChoice (i : InputData) : addChoice i.bare = addChoice i := by
  funext acc sl c; simp only [addChoice, read_choice, choice_bare_min]
theorem bare_dropChoice (i : InputData) : dropChoice i.bare = dropChoice i := by
  funext acc sl c; simp only [dropChoice, read_choice, choice_bare_min]
theorem bare_blockedEdges (i : InputData) : blockedEdges i.bare = blockedEdges i := by
  have h1 : blockedOf i.bare = blockedOf i := by funext st sl b c; simp only [blockedOf, bare_ns]
  funext st sl b; simp only [blockedEdges, h1]

theorem bare_prepare (pr : AProblem) : prepare pr.bare = prepare pr := by
  have h1 : scratchStep pr.input.bare = scratchStep pr.input := by funext acc e; simp only [scratchStep, bare_addChoice]
  have h2 : updateStep pr.input.bare = updateStep pr.input := by funext acc e; simp only [updateStep, bare_addChoice, bare_dropChoice]
  funext sv s
  simp only [prepare, fromScratch, update, AProblem.bare, h1, h2, bare_blockedEdges, bare_ns]

theorem bare_buildFlow (pr : AProblem) : buildFlow pr.bare = buildFlow pr := by
  have h1 : chooserSupplies pr.bare = chooserSupplies pr := by
    funext f; simp only [chooserSupplies, AProblem.bare, bare_np, bare_ns]
  have h2 : choiceSupply pr.bare = choiceSupply pr := by
    funext f e; simp only [choiceSupply, AProblem.bare, read_choice, choice_bare_min]
  have h3 : slotSupply pr.bare = slotSupply pr := by
    funext c f t; simp only [slotSupply, AProblem.bare, bare_np]
  have h4 : chooserEdges pr.bare = chooserEdges pr := by
    have ha : choiceEdge pr.bare = choiceEdge pr := by
      funext b l p src f c; simp only [choiceEdge, AProblem.bare, read_chooser, chooser_bare_prefs]
    have hb : slotEdges pr.bare = slotEdges pr := by
      funext b l p f e; simp only [slotEdges, ha]; rfl
    funext st b l f; simp only [chooserEdges, hb]; simp only [AProblem.bare, bare_np]
  have h5 : widthEdge pr.bare = widthEdge pr := by
    funext f e; simp only [widthEdge, AProblem.bare, read_choice, choice_bare_min, choice_bare_max]
  have h6 : edgeGroups pr.bare = edgeGroups pr := by
    have ha : pairGroups pr.bare = pairGroups pr := by
      have : pairGroup pr.bare = pairGroup pr := rfl
      funext st f c; simp only [pairGroups, this]; simp only [AProblem.bare, bare_ns]
    have hb : depGroup pr.bare = depGroup pr := by
      have : depKeys pr.bare = depKeys pr := rfl
      funext st f c; simp only [depGroup, this]; simp only [AProblem.bare, bare_np]
    funext st f; simp only [edgeGroups, ha, hb]; rfl
  funext st l
  simp only [buildFlow, h1, h2, h3, h4, h5, h6]
  simp only [AProblem.bare, bare_ns]

theorem bare_decode (pr : AProblem) : decode pr.bare = decode pr := by
  have h1 : cellOf pr.bare = cellOf pr := by
    funext f src l
    induction l with
    | nil => rfl
    | cons c cs ih => simp only [cellOf, ih]; rfl
  funext st f
  simp only [decode, h1]
  simp only [AProblem.bare, bare_ns, bare_np, bare_assignmentNew]

theorem bare_solveUntil (pr : AProblem) : solveUntil pr.bare = solveUntil pr := by
  have h1 : solveWithLimit pr.bare = solveWithLimit pr := by
    funext env dl st l sv; simp only [solveWithLimit, bare_buildFlow, bare_decode]
  funext env dl sv s
  simp only [solveUntil, h1, bare_prepare]
  rfl

end Asg

/-! ### HillClimbing.lean, Shotgun.lean -/

/-- The problem of the climber without names. -/
def HProblem.bare (pr : HProblem) : HProblem := { pr with input := pr.input.bare }

namespace Hill
variable {σ τ : Type}

theorem bare_pickNeighbors (g : RngOps σ) (draws maxN : Nat) (i : InputData) :
    pickNeighbors g draws maxN i.bare = pickNeighbors g draws maxN i := by
  have h1 : trySwap g draws i.bare = trySwap g draws i := by
    have : swapNeighbor g draws i.bare = swapNeighbor g draws i := by funext s rs; simp only [swapNeighbor, bare_withData]
    funext s res rs; simp only [trySwap, this, bare_schedFeasible]
  have h2 : addSwap i.bare = addSwap i := by simp only [addSwap, bare_nc, bare_ns]
  have h3 : neighbor i.bare = neighbor i := by funext s k; simp only [neighbor, bare_nc, bare_withData]
  have h4 : maxKey i.bare = maxKey i := by simp only [maxKey, bare_nc, bare_ns]
  have h5 : ∀ s, moveLoop g draws maxN i.bare s = moveLoop g draws maxN i s := by
    intro s; funext ks
    induction ks with
    | nil => rfl
    | cons k ks ih => funext n res rs; simp only [moveLoop, h1, h2, h3, ih, bare_schedFeasible]
  have h6 : ∀ s, fillLoop g draws maxN i.bare s = fillLoop g draws maxN i s := by
    intro s; funext k
    induction k with
    | zero => rfl
    | succ k ih => funext res rs; simp only [fillLoop, h1, ih]
  funext s rs
  simp only [pickNeighbors, h2, h4, h5, h6]

theorem bare_round (pr : HProblem) (env : HEnv σ τ) (dl : Bool) : round pr.bare env dl = round pr env dl := by
  funext ns
  induction ns with
  | nil => rfl
  | cons n ns ih => funext f b st; simp only [round, ih]; simp only [HProblem.bare, bare_evaluate]

theorem bare_solve (pr : HProblem) (env : HEnv σ τ) : solve pr.bare env = solve pr env := by
  have h1 : ∀ dl, loop pr.bare env dl = loop pr env dl := by
    intro dl; funext k
    induction k with
    | zero => rfl
    | succ k ih =>
      funext b st
      simp only [loop, bare_round, ih]
      simp only [HProblem.bare, bare_pickNeighbors]
  funext dl st s
  simp only [solve, h1]
  simp only [HProblem.bare, bare_evaluate]

end Hill

namespace Shotgun
variable {σ τ ρ : Type}

theorem bare_iterate (pr : HProblem) (env : SEnv σ τ ρ) (dl : Bool) : iterate pr.bare env dl = iterate pr env dl := by
  funext k
  induction k with
  | zero => rfl
  | succ k ih =>
    funext st
    simp only [iterate, ih, Hill.bare_solve]
    simp only [HProblem.bare, bare_evaluate]

end Shotgun
end Wassign
