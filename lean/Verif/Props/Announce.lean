import Verif.Model.Announce
import Verif.Props.Display
import Verif.Props.Search
/-
C76: what the program says about the input and the result is true.
-/
namespace Wassign
open Spec Build Threaded Main Reader

variable {F σ : Type}

namespace Spec

/-- The sentence about the size of the input. -/
def readSentence (slots choices choosers : Nat) : Str :=
  "Read ".toList ++ natStr slots ++ " slot(s), ".toList ++ natStr choices ++ " choice(s) and ".toList ++ natStr choosers ++
    " chooser(s).".toList

/-- The sentence about the constraints. -/
def foundSentence (sched asg : Nat) : Str :=
  "Found ".toList ++ natStr sched ++ " scheduling and ".toList ++ natStr asg ++ " assignment constraints.".toList

/-- How many different objects of a kind the script added. -/
def numberAdded (tr : List Reader.Event) (k : ObjKind) : Nat := (firsts (additions tr k)).length

end Spec

/-- **C76**: a rejected script is not commented on. -/
theorem C76_rejected (o : Outside F σ) (large : F → Nat → Nat → Bool) (opts : Opts F) (script : Script) (f : Fault)
    (h : (readInput o.opt (new opts) script).1 = .error f) : saidBefore o large opts script = ["Processing input.".toList] := by
  unfold saidBefore
  simp only [h]

/-- **C76**: for an accepted script the second line tells how many slots (one if none was added) and choosers the script
added, and the number of parts of all the choices it added, a choice without parts counting as one. -/
theorem C76_numbers (o : Outside F σ) (large : F → Nat → Nat → Bool) (opts : Opts F) (script : Script) (d : InputData)
    (h : (readInput o.opt (new opts) script).1 = .ok d) :
    ∃ raw, Describes (outcome o.opt opts script).1 raw ∧
      (saidBefore o large opts script)[1]? = some (readSentence (max 1 (numberAdded (outcome o.opt opts script).1 .slot))
        ((raw.choices.map (fun p => max 1 p.parts)).sum) (numberAdded (outcome o.opt opts script).1 .chooser)) := by
  obtain ⟨raw, hdes, hb⟩ := C55_input_as_described _ _ _ h
  have hdes : Describes (outcome o.opt opts script).1 raw := hdes
  have hmax := fun q hq => ((described_fit hdes).1 q hq).2.1
  obtain ⟨m, written, hbt⟩ := build_spec hmax hb
  refine ⟨raw, hdes, ?_⟩
  have e1 : d.slots.length = max 1 (numberAdded (outcome o.opt opts script).1 .slot) := by
    have hl := hdes.slots.length_eq
    unfold numberAdded
    rw [hl, hbt.slots]
    cases hs : raw.slots with
    | nil => rfl
    | cons a l => simp
  have e2 : d.choices.length = (raw.choices.map (fun p => max 1 p.parts)).sum := hbt.nc
  have e3 : d.choosers.length = numberAdded (outcome o.opt opts script).1 .chooser := by
    unfold numberAdded
    rw [hdes.choosers.length_eq]
    exact hbt.np
  unfold saidBefore
  simp only [h]
  show some (readLine d) = _
  unfold readLine readSentence
  rw [e1, e2, e3]

/-- ... so if no choice has several parts, it is the number of choices added. -/
theorem C76_number_of_choices (o : Outside F σ) (large : F → Nat → Nat → Bool) (opts : Opts F) (script : Script) (d : InputData)
    (h : (readInput o.opt (new opts) script).1 = .ok d)
    (hsingle : ∀ raw, Describes (outcome o.opt opts script).1 raw → ∀ p ∈ raw.choices, p.parts ≤ 1) :
    (saidBefore o large opts script)[1]? = some (readSentence (max 1 (numberAdded (outcome o.opt opts script).1 .slot))
      (numberAdded (outcome o.opt opts script).1 .choice) (numberAdded (outcome o.opt opts script).1 .chooser)) := by
  obtain ⟨raw, hdes, e⟩ := C76_numbers o large opts script d h
  rw [e]
  have : ∀ l : List Proto, (∀ p ∈ l, p.parts ≤ 1) → (l.map (fun p => max 1 p.parts)).sum = l.length := by
    intro l
    induction l with
    | nil => intro _; rfl
    | cons p l ih =>
      intro hp
      have h1 := hp p (by simp)
      have h2 := ih (fun q hq => hp q (by simp [hq]))
      rw [List.map_cons, List.sum_cons, h2, List.length_cons]
      omega
  rw [this _ (hsingle raw hdes)]
  unfold numberAdded
  rw [← hdes.choices.length_eq]

/-- **C76**: the third line tells how many scheduling constraints and how many assignment constraints the input has after the
rewriting of C27, all of the kind announced. -/
theorem C76_constraints (o : Outside F σ) (large : F → Nat → Nat → Bool) (opts : Opts F) (script : Script) (d : InputData)
    (h : (readInput o.opt (new opts) script).1 = .ok d) :
    (saidBefore o large opts script)[2]? = some (foundSentence d.schedCons.length d.asgCons.length) ∧
    (∀ c ∈ d.schedCons, SchedConWF d c) ∧ (∀ c ∈ d.asgCons, AsgConWF d c) := by
  obtain ⟨raw, hdes, hb⟩ := C55_input_as_described _ _ _ h
  obtain ⟨m, written, hbt⟩ := build_spec (fun q hq => ((described_fit hdes).1 q hq).2.1) hb
  refine ⟨?_, hbt.wf.sched, hbt.wf.asg⟩
  unfold saidBefore
  simp only [h]
  rfl

/-- **C76** (the bound; partial as C15: the minima of all choices together must fit into all slots but one): a bound is
announced exactly if there are several slots and critical sets are used; and whatever preference level lies below the
announced bound, every valid solution gives somebody a choice whose value is worse than that level. -/
theorem C76_bound_partial (o : Outside F σ) (large : F → Nat → Nat → Bool) (opts : Opts F) (script : Script) (d : InputData)
    (h : (readInput o.opt (new opts) script).1 = .ok d) (raw : Raw) (hdes : Describes (outcome o.opt opts script).1 raw)
    (hbd : build raw = .ok d) (hr : ManageableRaw raw) (hd : Manageable d) :
    let eff := effectiveOptions (readInput o.opt (new opts) script).2
    ∃ p, prepare o d eff = .ok p ∧
      (saidBefore o large opts script).drop 3 = (if large eff.prefExp d.maxPref d.choosers.length then [exponentLine] else []) ++
        (if eff.noCs = false ∧ eff.greedy = false ∧ 1 < d.slots.length then
          [if eff.noCsSimp then "Performing critical set analysis without simplification.".toList
           else "Performing critical set analysis with simplification.".toList,
           "Critical set analysis gives a preference bound of ".toList ++ natStr p.analysis.preferenceBound ++ ".".toList]
         else ["Skipping critical set analysis.".toList]) ++ ["Generating static data and starting solver.".toList] ∧
      p.analysis.preferenceBound ≤ d.maxPref ∧
      (0 < d.choosers.length → (d.choices.map (·.min)).sum ≤ d.choosers.length * (d.slots.length - 1) →
        ∀ l ∈ d.prefLevels, l < p.analysis.preferenceBound → ∀ s a, Shape d s a → Valid d s a → ¬ WorstAtMost d a l) := by
  intro eff
  have hmax := fun q hq => ((described_fit hdes).1 q hq).2.1
  obtain ⟨m, written, hbt⟩ := build_spec hmax hbd
  obtain ⟨hz, hnc, hns⟩ := sizes_of_manageable hbt hr hd
  obtain ⟨hlev, _, hmem, _⟩ := C26_levels_partial raw d hmax hbd
  obtain ⟨p, hp⟩ := C49_prepare_succeeds raw d hmax hbd hr hd o eff
  obtain ⟨an, si, hA⟩ : ∃ an si, Analysis.new d an si = .ok p.analysis := by
    have hp' := hp
    unfold Main.prepare at hp'
    simp only [R.bind_eq_ok] at hp'
    obtain ⟨an, h1, st, _, hp'⟩ := hp'
    cases hp'
    exact ⟨_, _, h1⟩
  refine ⟨p, hp, ?_, C15_bound_le_max d an si _ hA, ?_⟩
  · unfold saidBefore
    have hsat : satU32 d.choosers.length = d.choosers.length := by
      have := hd.choosers
      unfold satU32 u32Max
      omega
    simp only [h, hsat]
    rw [show prepare o d (effectiveOptions (readInput o.opt (new opts) script).2) = .ok p from hp]
    simp only [List.cons_append, List.nil_append, List.drop_succ_cons, List.drop_zero, List.append_assoc]
    congr 1
    unfold analysisLine doSimplification doAnalysis boundLine
    show _ = (if eff.noCs = false ∧ eff.greedy = false ∧ 1 < d.slots.length then _ else _) ++ _
    by_cases hc : eff.noCs = false ∧ eff.greedy = false ∧ 1 < d.slots.length
    · rw [if_pos hc]
      obtain ⟨h1, h2, h3⟩ := hc
      have e1 : (effectiveOptions (readInput o.opt (new opts) script).2).noCs = false := h1
      have e2 : (effectiveOptions (readInput o.opt (new opts) script).2).greedy = false := h2
      show _ = [if (effectiveOptions (readInput o.opt (new opts) script).2).noCsSimp = true then _ else _, _] ++ _
      cases hsimp : (effectiveOptions (readInput o.opt (new opts) script).2).noCsSimp <;> simp [e1, e2, h3]
    · rw [if_neg hc]
      have : (!eff.noCs && !eff.greedy && decide (1 < d.slots.length)) = false := by
        cases h1 : eff.noCs <;> cases h2 : eff.greedy <;> simp_all
      have this : (!(effectiveOptions (readInput o.opt (new opts) script).2).noCs &&
        !(effectiveOptions (readInput o.opt (new opts) script).2).greedy && decide (1 < d.slots.length)) = false := this
      simp [this]
  · intro hnp hmin l hl hlt s a hsh hv
    exact C15_bound_is_lower_bound_partial d hbt.wf hz ⟨hlev, hmem⟩ an si p.analysis hA hnp hmin l hl hlt s a hsh hv

/-- **C76**: after a search in which no worker panicked, the program says "No solution found." exactly if it hands out no
tables, and otherwise "Solution found." and a score (which is that of the tables, C73). -/
theorem C76_verdict (tie : Nat → Bool) (raw : Raw) (tr : List Reader.Event) (hdes : Describes tr raw) (d : InputData)
    (h : build raw = .ok d) (o : Outside F σ) (hrng : o.rng.Lawful) (opts : Opts F)
    (p : Prepared) (hp : prepare o d opts = .ok p) (g : Session σ ASolver (σ × Nat)) (hg : Run (setup o p opts) (start (setup o p opts)) g)
    (hok : ∀ w ∈ g.workers, w.phase ≠ .panicked) :
    (report p g = .ok .noSolution ∧ saidAfter tie p g = ["No solution found.".toList]) ∨
    ∃ sched asg text, report p g = .ok (.tables sched asg) ∧ saidAfter tie p g = ["Solution found.".toList, "Solution score: ".toList ++ text] ∧
      scoreShown tie p g = .ok (some text) := by
  have hmax := fun q hq => ((described_fit hdes).1 q hq).2.1
  obtain ⟨mm, written, hb⟩ := build_spec hmax h
  obtain ⟨hin, hS⟩ := setup_wf hdes h hrng hp
  have hn : (setup o p opts).problem.input.nc ≤ u32Max := by
    have := hb.ncI32
    show p.input.nc ≤ u32Max
    rw [hin]
    unfold i32Max at this; unfold u32Max; omega
  obtain ⟨sol, hw, hiff, hsol⟩ := C21_invalid_iff _ _ _ hS g hg hn hok
  rcases hsol with rfl | ⟨s, a, rfl, hsh, hss, hv, hpl, sc, hsc, hfin⟩
  · left
    have hno : scoreShown tie p g = .ok none := by unfold scoreShown; rw [hw]; rfl
    refine ⟨by unfold report; rw [hw]; rfl, ?_⟩
    unfold saidAfter
    rw [hno]
  · right
    have hsc' : p.scoring.evaluate p.input (.complete s a) = .ok sc := hsc
    have hshown : scoreShown tie p g = .ok (some (sc.display tie)) := by
      unfold scoreShown
      rw [hw, R.bind_ok]
      simp only [Solution.isInvalid, Bool.false_eq_true, if_false]
      rw [hsc']
      rfl
    rcases report_ok hdes h hrng hp hg hok with ⟨e, _⟩ | ⟨s', a', x, sched, hw', hrep, hss', hv', _, ⟨table, rfl, htab⟩, _⟩
    · exfalso
      unfold report at e
      rw [hw] at e
      simp only [R.bind_ok, Solution.isInvalid, Bool.false_eq_true, if_false] at e
      rw [hsc', R.bind_ok] at e
      split at e <;> (simp only [R.bind_eq_ok] at e; obtain ⟨_, _, _, _, e⟩ := e; cases e)
    · refine ⟨sched, _, _, hrep, ?_, hshown⟩
      unfold saidAfter
      rw [hshown]

/-! ## Concrete cases -/

namespace AnnounceEx
open ReadEx

/-- The messages for the example of Total.lean (two slots, two choices, two choosers). -/
theorem before : (saidBefore MainEx.outside (fun _ _ _ => false) opts MainEx.script).map String.ofList =
    ["Processing input.", "Read 2 slot(s), 2 choice(s) and 2 chooser(s).", "Found 1 scheduling and 0 assignment constraints.",
     "Performing critical set analysis with simplification.", "Critical set analysis gives a preference bound of 1.",
     "Generating static data and starting solver."] := by
  decide +kernel

/-- `+slot("A"); +slot("B"); +choice("Course", parts(2), bounds(1, 5)); +chooser("Ann", [1])` -/
def script : Script :=
  given (.slot "A".toList) fun a => then' (.add .slot a) <|
  given (.slot "B".toList) fun b => then' (.add .slot b) <|
  given (.choice "Course".toList [tagInt .parts 2, ⟨.bounds, [1, 5]⟩]) fun c => then' (.add .choice c) <|
  given (.chooser "Ann".toList [.int 1]) fun p => then' (.add .chooser p) .done

/-- A choice of two parts is announced as two choices. -/
theorem two_parts : ((saidBefore MainEx.outside (fun _ _ _ => false) opts script)[1]?).map String.ofList =
    some "Read 2 slot(s), 2 choice(s) and 1 chooser(s)." := by
  decide +kernel

end AnnounceEx
end Wassign
