import Verif.Props.Verdict
import Verif.Proofs.Single
import Verif.Props.AssignmentSearch
import Verif.Props.Float
/-
C59: with a single slot, the program's answer is the best there is.
-/
namespace Wassign
open Spec Build Threaded Main Reader

variable {F σ : Type}

/-- What is assumed of the MIP backend of every worker: it returns optimal solutions of the programs it is given, and it
returns one whenever there is one. -/
structure Exact (b : Backend) : Prop where
  sound : Backend.Sound b
  optimal : Backend.Optimal b
  timely : Backend.Timely b

theorem unclocked_backend {env : AEnv} (h : Exact env.backend) :
    Backend.Sound (unclocked env).backend ∧ Backend.Optimal (unclocked env).backend ∧ Backend.Complete (unclocked env).backend :=
  ⟨fun n f _ x e => h.sound n f true x e, fun n f _ x e => h.optimal n f true x e, fun n f e => h.timely n f true e⟩

section
variable (raw : Raw) (tr : List Reader.Event) (hdes : Describes tr raw) (d : InputData) (h : build raw = .ok d)
  (hr : ManageableRaw raw) (hd : Manageable d) (o : Outside F σ) (ho : Trusted o d.nc) (hx : Exact (o.backend 0))
  (opts : Opts F) (hcs : 0 ≤ opts.csTimeout) (p : Prepared) (hp : prepare o d opts = .ok p)
  (hl1 : ∀ t, o.lateIter 0 t = false) (hl2 : ∀ a b c, o.lateSearch 0 a b c = false) (hl3 : ∀ t, o.lateAsg 0 t = false)
  (hfin : Scorable p.scoring d)
  (g : Session σ ASolver (σ × Nat)) (hg : Undisturbed (setup o p opts) (start (setup o p opts)) g) (hover : g.over)
  (h1 : d.slots.length = 1) (hman : ∀ c ∈ d.choices, c.isOptional = false)
include hdes h hr hd ho hx hcs hp hl1 hl2 hl3 hfin hg hover h1 hman

/-- What an undisturbed session with a single slot ends with. -/
theorem single_outcome : (report p g = .ok .noSolution ∧ ¬ ∃ s a, SchedShape d s ∧ Valid d s a ∧ Placed d s) ∨
    ∃ s a asg, SchedShape d s ∧ Shape d s a ∧ Valid d s a ∧ Placed d s ∧ report p g = .ok (.tables none asg) ∧
      (∃ table, asg = csv table ∧ AssignmentTable d s a table) ∧ (∀ s' a', SchedShape d s' → Placed d s' → Valid d s' a' → s' = s) ∧
      ∃ sv', Asg.solveUntil (asgProblem o p opts) (unclocked (asgEnv o 0)) false ASolver.new s = .ok (some a, sv') := by
  have hmax := fun q hq => ((described_fit hdes).1 q hq).2.1
  obtain ⟨m, written, hb⟩ := build_spec hmax h
  obtain ⟨hz, hnc', hns'⟩ := sizes_of_manageable hb hr hd
  obtain ⟨hlev, _, hmem, _⟩ := C26_levels_partial raw d hmax h
  have hready := ready_of_built hb hr.numbers hnc' hns'
  have hcalm := C49_no_worker_panics raw d hmax h hr hd o ho opts hcs p hp g hg.toRun
  obtain ⟨hbd, hsets⟩ := (C56_critical_sets o d opts p hp).1 (.inr (.inr (by show d.slots.length ≤ 1; omega)))
  have hrep := report_ok hdes h ho.lawful hp hg.toRun hcalm
  have hpp := hp
  unfold prepare at hpp
  simp only [R.bind_eq_ok] at hpp
  obtain ⟨an, han, S, hS, hpp⟩ := hpp
  obtain ⟨hok, hlev', hlast⟩ := problemOk_of_built raw d hmax h hd.nodes (asgProblem o p opts) (by cases hpp; rfl) (by cases hpp; exact hS)
  have hin : p.input = d := by cases hpp; rfl
  obtain ⟨q1, q2, q3⟩ := unclocked_backend (env := asgEnv o 0) hx
  have hstrip : ∀ s r t', ((setup o p opts).env 0).asolve ASolver.new s = .ok (r, t') →
      Asg.solveUntil (asgProblem o p opts) (unclocked (asgEnv o 0)) false ASolver.new s = .ok (r, strip t') := by
    intro s r t' e
    have := solveUntil_strip (pr := asgProblem o p opts) (env := asgEnv o 0) hl3 ASolver.new s
    rw [show Asg.solveUntil (asgProblem o p opts) (asgEnv o 0) true ASolver.new s = .ok (r, t') from e] at this
    exact this
  -- the one iteration
  obtain ⟨w, hw, _, hst⟩ := single_session (cfg := setup o p opts) (by show p.input.ns = 1; rw [hin]; exact h1) hg
  have hph : w.phase = .finished := by
    rcases hover w (by rw [hw]; simp) with e | e
    · exact e
    · exact absurd e (hcalm w (by rw [hw]; simp))
  rw [hph] at hst
  simp only [reduceCtorEq, if_false] at hst
  have htr := run_track hg.toRun 0 w (by rw [hw]; rfl)
  unfold OnTrack at htr
  rw [hph, hst] at htr
  simp only [after] at htr
  cases hit : Shotgun.iterate (setup o p opts).problem ((setup o p opts).env 0) true 1 ((setup o p opts).init 0) with
  | error e => rw [hit] at htr; cases htr
  | ok y =>
  obtain ⟨k, st'⟩ := y
  rw [hit] at htr
  simp only [Option.some.injEq] at htr
  have hbs : w.st.progress.bestScore = st'.progress.bestScore ∧ w.st.progress.bestSolution = st'.progress.bestSolution := by
    rw [← htr]; split <;> exact ⟨rfl, rfl⟩
  have hwait : ∀ sol, wait g = .ok sol → (w.st.progress.bestScore.isFinite = true ∧ sol = w.st.progress.bestSolution) ∨
      (w.st.progress.bestScore.isFinite = false ∧ sol = .invalid) := by
    intro sol e
    unfold wait collect at e
    rw [hw] at e
    simp only [List.foldlM_cons, List.foldlM_nil, joinStep, hph, reduceCtorEq, if_false, R.bind_ok, R.pure_eq] at e
    cases hf : w.st.progress.bestScore.isFinite with
    | true =>
      rw [if_pos (Score.lt_inf hf)] at e
      cases e; exact .inl ⟨rfl, rfl⟩
    | false =>
      have : Score.lt w.st.progress.bestScore Score.infinite = false := by
        cases hlt : Score.lt w.st.progress.bestScore Score.infinite with
        | false => rfl
        | true => rw [Score.lt_finite hlt] at hf; cases hf
      rw [this] at e
      cases e; exact .inr ⟨rfl, rfl⟩
  have hsource : ∀ r s r', ((setup o p opts).env 0).next r = .ok (some s, r') → SchedShape d s ∧ SchedValid d s := by
    intro r s r' e
    obtain ⟨e1, e2⟩ := Search.nextScheduling_feasible (source_next e)
    rw [hin] at e1 e2
    refine ⟨⟨e1, schedFeasible_range e1 e2⟩, ?_⟩
    exact (schedFeasible_spec e1 (by have := hz.choices; unfold i32Max at this; unfold u32Max; omega)
      (by have := hz.choosers; unfold i32Max at this; unfold u32Max; omega) hb.wf.sched e2).1 rfl
  have hcomp : ∀ s a sv', Asg.solveUntil (asgProblem o p opts) (unclocked (asgEnv o 0)) false ASolver.new s = .ok (some a, sv') →
      SchedShape d s → SchedValid d s → Shape d s a ∧ Valid d s a := by
    intro s a sv' e hs hsv
    have e1 := C06_solved_assignments_valid (asgProblem o p opts) (unclocked (asgEnv o 0)) hok hlev' q1 true ASolver.new .new s
      (by show SchedShape p.input s; rw [hin]; exact hs) false a sv' e
    have e2 : InOrder p.input s a ∧ AsgValid p.input s a := e1
    rw [hin] at e2
    exact ⟨⟨hs.len, e2.1.rows, e2.1.cols⟩, ⟨hsv.cons, e2.2.asg, e2.2.onePerSlot, e2.2.onlyScheduled, e2.2.bounds⟩⟩
  have hone := single_iterate (pr := (setup o p opts).problem) (env := (setup o p opts).env 0) ho.lawful
    (by show p.input.ns = 1; rw [hin]; exact h1) (by show ∀ c ∈ p.input.choices, _; rw [hin]; exact hman) hl1
    (by
      intro r s r' e
      show SchedShape p.input s ∧ Placed p.input s
      rw [hin]
      exact ⟨(hsource r s r' e).1, (hsource r s r' e).2.mandatory⟩)
    rfl
    (by
      intro s a t t' e sc hsc' hs hpl ht hn
      obtain ⟨r, r', hn⟩ := hn
      have ht : t = ASolver.new := ht
      subst ht
      obtain ⟨_, hsv⟩ := hsource r s r' hn
      have hs : SchedShape p.input s := hs
      rw [hin] at hs
      obtain ⟨e1, e2⟩ := hcomp s a _ (hstrip s _ t' e) hs hsv
      obtain ⟨sc2, e3, e4⟩ := hfin s a hs e1 e2
      have hsc' : p.scoring.evaluate p.input (.complete s a) = .ok sc := hsc'
      rw [hin, e3] at hsc'
      cases hsc'
      exact e4) hit
  rcases hone with ⟨r, r', hn, hbest⟩ | ⟨s, r, r', hn, hres⟩
  · left
    have hnone : ¬ ∃ s a, SchedShape d s ∧ Valid d s a ∧ Placed d s := by
      rintro ⟨s, a, e1, e2, e3⟩
      obtain ⟨x, hx'⟩ := source_none hn
      rw [hin] at hx'
      exact Search.single_none ho.lawful hb.wf hz hready ⟨hlev, hmem⟩ h1 hman (by rw [hbd]; omega) hsets (fun l k => hl2 _ l k) hx' s e1
        (schedValid_of_valid e1.len e2 e3)
    refine ⟨?_, hnone⟩
    rcases hrep with ⟨e, _⟩ | ⟨s, a, _, _, _, _, hs, hv, hpl, _⟩
    · exact e
    · exact absurd ⟨s, a, hs, hv, hpl⟩ hnone
  · obtain ⟨hs, hsv⟩ := hsource r s r' hn
    have huniq : ∀ s' a', SchedShape d s' → Placed d s' → Valid d s' a' → s' = s :=
      fun s' a' e1 e2 _ => single_unique h1 hman e1 e2 hs hsv.mandatory
    have hlinks : LinksScheduled (asgProblem o p opts).input s := by
      show LinksScheduled p.input s
      rw [hin]
      exact links_of_all hb.wf (fun c hc => hsv.mandatory c hc (hman _ (List.getElem_mem hc)))
    rcases hres with ⟨t', ha, hbest⟩ | ⟨a, t', ha, hsol, hbest⟩
    · left
      have hnone : ¬ ∃ s a, SchedShape d s ∧ Valid d s a ∧ Placed d s := by
        rintro ⟨s', a, e1, e2, e3⟩
        have e4 := huniq s' a e1 e3 e2
        subst e4
        have := C08_none_means_none_partial (asgProblem o p opts) (unclocked (asgEnv o 0)) hok hlev' q1 true ASolver.new .new s'
          (by show SchedShape p.input s'; rw [hin]; exact hs) hlinks q3 hlast _ (hstrip _ _ _ ha) a
        have hthis : ¬ AsgValid p.input s' a := this
        rw [hin] at hthis
        exact hthis ⟨e2.onePerSlot, e2.onlyScheduled, e2.bounds, e2.asg⟩
      refine ⟨?_, hnone⟩
      rcases hrep with ⟨e, _⟩ | ⟨s, a, _, _, _, _, hs, hv, hpl, _⟩
      · exact e
      · exact absurd ⟨s, a, hs, hv, hpl⟩ hnone
    · right
      rcases hrep with ⟨_, e⟩ | ⟨s2, a2, x, sched, hw2, hre, hs2, hv2, hpl2, ht2, hsch⟩
      · have := e w (by rw [hw]; simp)
        rw [hbs.1, hbest] at this; cases this
      · have hns : ¬ 1 < d.ns := by show ¬ 1 < d.slots.length; omega
        rw [if_neg hns] at hsch
        subst hsch
        have heq : Solution.complete s2 a2 = .complete s a := by
          rcases hwait _ hw2 with ⟨_, e⟩ | ⟨e, _⟩
          · rw [e, hbs.2, hsol]
          · rw [hbs.1, hbest] at e; cases e
        cases heq
        exact ⟨s, a, x, hs2, (hcomp s a _ (hstrip _ _ _ ha) hs hsv).1, hv2, hpl2, hre, ht2, huniq, _, hstrip _ _ _ ha⟩

/-- **C59**, `--greedy`: with a single slot and nothing optional, an undisturbed run ends with the truth: it says "No solution
found." and there is none, or it prints a valid solution, and no valid solution has a smaller total cost. -/
theorem C59_greedy_optimal_partial (hgr : opts.greedy = true) :
    (report p g = .ok .noSolution ∧ ¬ ∃ s a, SchedShape d s ∧ Valid d s a ∧ Placed d s) ∨
    ∃ s a asg, SchedShape d s ∧ Shape d s a ∧ Valid d s a ∧ Placed d s ∧ report p g = .ok (.tables none asg) ∧
      (∃ table, asg = csv table ∧ AssignmentTable d s a table) ∧
      ∀ s' a', SchedShape d s' → Placed d s' → Valid d s' a' →
        totalCost d (o.cost opts.prefExp) a ≤ totalCost d (o.cost opts.prefExp) a' := by
  rcases single_outcome raw tr hdes d h hr hd o ho hx opts hcs p hp hl1 hl2 hl3 hfin g hg hover h1 hman with e | ⟨s, a, asg, hs, hsh, hv, hpl, hre, ht, hu, sv', hsol⟩
  · exact .inl e
  · refine .inr ⟨s, a, asg, hs, hsh, hv, hpl, hre, ht, ?_⟩
    have hmax := fun q hq => ((described_fit hdes).1 q hq).2.1
    obtain ⟨m, written, hb⟩ := build_spec hmax h
    have hpp := hp
    unfold prepare at hpp
    simp only [R.bind_eq_ok] at hpp
    obtain ⟨an, han, S, hS, hpp⟩ := hpp
    obtain ⟨hok, hlev', hlast⟩ := problemOk_of_built raw d hmax h hd.nodes (asgProblem o p opts) (by cases hpp; rfl) (by cases hpp; exact hS)
    have hin : p.input = d := by cases hpp; rfl
    obtain ⟨q1, q2, q3⟩ := unclocked_backend (env := asgEnv o 0) hx
    have hlinks : LinksScheduled p.input s := by
      rw [hin]
      exact links_of_all hb.wf (fun c hc => hpl c hc (hman _ (List.getElem_mem hc)))
    have key := (C07_cheapest_partial (asgProblem o p opts) (unclocked (asgEnv o 0)) hok hlev' q1 true ASolver.new .new s
      (by show SchedShape p.input s; rw [hin]; exact hs) hlinks q2 false a sv' hsol).1 hgr
    intro s' a' e1 e2 e3
    have e4 := hu s' a' e1 e2 e3
    subst e4
    have key : ∀ a', AsgValid p.input s' a' → totalCost p.input (o.cost opts.prefExp) a ≤ totalCost p.input (o.cost opts.prefExp) a' := key
    rw [hin] at key
    exact key a' ⟨e3.onePerSlot, e3.onlyScheduled, e3.bounds, e3.asg⟩

/-- **C59** without `--greedy`: it says "No solution found." and there is none, or it prints a valid solution which is
(1) no worse for the worst-off chooser than any other valid solution, as far as the preference levels tell: it stays within
every level within which some valid solution stays; and which (2) has the least total cost among the valid solutions that
stay within its own worst preference. -/
theorem C59_optimal_partial (hgr : opts.greedy = false) :
    (report p g = .ok .noSolution ∧ ¬ ∃ s a, SchedShape d s ∧ Valid d s a ∧ Placed d s) ∨
    ∃ s a asg, SchedShape d s ∧ Shape d s a ∧ Valid d s a ∧ Placed d s ∧ report p g = .ok (.tables none asg) ∧
      (∃ table, asg = csv table ∧ AssignmentTable d s a table) ∧
      (∀ s' a', SchedShape d s' → Placed d s' → Valid d s' a' → ∀ l ∈ d.prefLevels, WithinLimit d a' l → WithinLimit d a l) ∧
      (∀ s' a' w, SchedShape d s' → Placed d s' → Valid d s' a' → IsWorst d a w → WithinLimit d a' w →
        totalCost d (o.cost opts.prefExp) a ≤ totalCost d (o.cost opts.prefExp) a') := by
  rcases single_outcome raw tr hdes d h hr hd o ho hx opts hcs p hp hl1 hl2 hl3 hfin g hg hover h1 hman with e | ⟨s, a, asg, hs, hsh, hv, hpl, hre, ht, hu, sv', hsol⟩
  · exact .inl e
  · refine .inr ⟨s, a, asg, hs, hsh, hv, hpl, hre, ht, ?_⟩
    have hmax := fun q hq => ((described_fit hdes).1 q hq).2.1
    obtain ⟨m, written, hb⟩ := build_spec hmax h
    obtain ⟨hbd, _⟩ := (C56_critical_sets o d opts p hp).1 (.inr (.inr (by show d.slots.length ≤ 1; omega)))
    have hpp := hp
    unfold prepare at hpp
    simp only [R.bind_eq_ok] at hpp
    obtain ⟨an, han, S, hS, hpp⟩ := hpp
    obtain ⟨hok, hlev', hlast⟩ := problemOk_of_built raw d hmax h hd.nodes (asgProblem o p opts) (by cases hpp; rfl) (by cases hpp; exact hS)
    have hin : p.input = d := by cases hpp; rfl
    obtain ⟨q1, q2, q3⟩ := unclocked_backend (env := asgEnv o 0) hx
    have hlinks : LinksScheduled p.input s := by
      rw [hin]
      exact links_of_all hb.wf (fun c hc => hpl c hc (hman _ (List.getElem_mem hc)))
    have hss : SchedShape p.input s := by rw [hin]; exact hs
    have k1 := (C07_cheapest_partial (asgProblem o p opts) (unclocked (asgEnv o 0)) hok hlev' q1 true ASolver.new .new s
      hss hlinks q2 false a sv' hsol).2
    have k1 : ∀ a' w, AsgValid p.input s a' → IsWorst p.input a w → WithinLimit p.input a' w →
      totalCost p.input (o.cost opts.prefExp) a ≤ totalCost p.input (o.cost opts.prefExp) a' := k1
    obtain ⟨l, hl, hwl, hleast⟩ := C10_least_level_partial (asgProblem o p opts) (unclocked (asgEnv o 0)) hok hlev' q1 hgr q3
      ASolver.new .new s hss hlinks a sv' hsol
    have hleast : ∀ l' ∈ p.input.prefLevels, p.analysis.preferenceBound ≤ l' → ∀ a', AsgValid p.input s a' → WithinLimit p.input a' l' → l ≤ l' := hleast
    have hwl : WithinLimit p.input a l := hwl
    rw [hin] at k1 hleast hwl
    refine ⟨?_, ?_⟩
    · intro s' a' e1 e2 e3 l' hl' hw'
      have e4 := hu s' a' e1 e2 e3
      subst e4
      have := hleast l' hl' (by rw [hbd]; omega) a' ⟨e3.onePerSlot, e3.onlyScheduled, e3.bounds, e3.asg⟩ hw'
      intro pp c x a1 a2
      exact Nat.le_trans (hwl pp c x a1 a2) this
    · intro s' a' w e1 e2 e3 hw hw'
      have e4 := hu s' a' e1 e2 e3
      subst e4
      exact k1 a' w ⟨e3.onePerSlot, e3.onlyScheduled, e3.bounds, e3.asg⟩ hw hw'

/-- **C59** without `--greedy`, if every preference that occurs is a preference level (which C26 shows is not always so): the
printed solution is best first in the worst preference, then in the total cost. -/
theorem C59_lexicographic_partial (hgr : opts.greedy = false) (hvals : ∀ p c x, pref d p c = some x → x ∈ d.prefLevels) :
    (report p g = .ok .noSolution ∧ ¬ ∃ s a, SchedShape d s ∧ Valid d s a ∧ Placed d s) ∨
    ∃ s a asg, SchedShape d s ∧ Shape d s a ∧ Valid d s a ∧ Placed d s ∧ report p g = .ok (.tables none asg) ∧
      (∃ table, asg = csv table ∧ AssignmentTable d s a table) ∧
      ∀ s' a' w w', SchedShape d s' → Placed d s' → Valid d s' a' → IsWorst d a w → IsWorst d a' w' →
        w < w' ∨ w = w' ∧ totalCost d (o.cost opts.prefExp) a ≤ totalCost d (o.cost opts.prefExp) a' := by
  rcases C59_optimal_partial raw tr hdes d h hr hd o ho hx opts hcs p hp hl1 hl2 hl3 hfin g hg hover h1 hman hgr with
    e | ⟨s, a, asg, hs, hsh, hv, hpl, hre, ht, hlev, hcost⟩
  · exact .inl e
  · refine .inr ⟨s, a, asg, hs, hsh, hv, hpl, hre, ht, ?_⟩
    have hmax := fun q hq => ((described_fit hdes).1 q hq).2.1
    obtain ⟨_, hzero, _⟩ := C26_levels_partial raw d hmax h
    intro s' a' w w' e1 e2 e3 hw hw'
    have hmem : w' ∈ d.prefLevels := by
      rcases hw'.attained with e | ⟨p, c, _, h2⟩
      · rw [e]; exact hzero
      · exact hvals p c w' h2
    have hle : w ≤ w' := by
      rcases hw.attained with e | ⟨p, c, f1, f2⟩
      · omega
      · exact hlev s' a' e1 e2 e3 w' hmem hw'.upper p c w f1 f2
    rcases Nat.lt_or_eq_of_le hle with hlt | heq
    · exact .inl hlt
    · exact .inr ⟨heq, hcost s' a' w e1 e2 e3 hw (by rw [heq]; exact hw'.upper)⟩

end
end Wassign

/-! ## Such a session ends -/
namespace Wassign
open Spec Build Threaded Main Reader

/-- **C59**: with a single slot a session can end undisturbed. -/
theorem C59_session_ends {σ τ ρ : Type} (cfg : Setup σ τ ρ) (h1 : cfg.problem.input.ns = 1) :
    ∃ g, Undisturbed cfg (start cfg) g ∧ g.over := by
  have hs : start cfg = ⟨false, [⟨.check, cfg.init 0, 0⟩]⟩ := by simp [start, workerCount, h1, List.range_succ]
  rw [hs]
  have u1 := Undisturbed.step (cfg := cfg) (.refl _) (.check ⟨false, [⟨.check, cfg.init 0, 0⟩]⟩ 0 ⟨.check, cfg.init 0, 0⟩ rfl rfl)
  simp only [checkStep, Bool.or_false, Bool.false_eq_true, if_false, List.set_cons_zero, Nat.zero_add] at u1
  have u2 := Undisturbed.step u1 (.run _ 0 ⟨.run, cfg.init 0, 1⟩ rfl rfl)
  simp only [List.set_cons_zero] at u2
  have hx : runStep cfg 0 ⟨.run, cfg.init 0, 1⟩ = match Shotgun.iterate cfg.problem (cfg.env 0) true 1 (cfg.init 0) with
    | .ok (k, st) => ⟨.test k, st, 1⟩
    | .error _ => ⟨.panicked, cfg.init 0, 1⟩ := rfl
  rw [hx] at u2
  cases hi : Shotgun.iterate cfg.problem (cfg.env 0) true 1 (cfg.init 0) with
  | error e =>
    rw [hi] at u2
    exact ⟨_, u2, by intro w hw; simp at hw; subst hw; exact .inr rfl⟩
  | ok y =>
    obtain ⟨k, st⟩ := y
    rw [hi] at u2
    have u3 := Undisturbed.step u2 (.test _ 0 k ⟨.test k, st, 1⟩ rfl rfl)
    refine ⟨_, u3, ?_⟩
    intro w hw
    simp only [List.set_cons_zero, List.mem_singleton] at hw
    subst hw
    rcases testStep_cases (cfg := cfg) 0 k ⟨.test k, st, 1⟩ with ⟨e, _⟩ | ⟨e, _⟩ | ⟨e, he⟩
    · rw [e]; exact .inl rfl
    · rw [e]; exact .inl rfl
    · exact absurd (.inl h1) he

theorem ideal_exact : Exact idealBackend :=
  ⟨ideal_sound, ideal_optimal, fun n f _ h => ideal_complete n f h⟩

end Wassign

/-! ## The hypotheses are met -/
namespace Wassign.SingleEx
open Threaded Main Reader ReadEx Spec Build

/-- One slot, two choices with room for one, and two choosers who both prefer swimming. -/
def script : Script :=
  given (.slot "Monday".toList) fun s => then' (.add .slot s) <|
  given (.choice "Swimming".toList [tagInt .max 1]) fun a => then' (.add .choice a) <|
  given (.choice "Chess".toList [tagInt .max 1]) fun b => then' (.add .choice b) <|
  given (.chooser "Ann".toList [.int 2, .int 1]) fun p => then' (.add .chooser p) <|
  given (.chooser "Bob".toList [.int 3, .int 0]) fun q => then' (.add .chooser q) .done

def outside : Outside Unit Nat := { MainEx.outside with lateIter := fun _ _ => false }
noncomputable def ideal : Outside Unit Nat := { outside with backend := fun _ => idealBackend }

def read := readInput outside.opt (new opts) script
def data : InputData := match read.1 with
  | .ok d => d
  | .error _ => default
/-- The options after reading, with or without `--greedy`. -/
def eff (greedy : Bool) : Opts Unit := { effectiveOptions read.2 with greedy := greedy }
def prepared (greedy : Bool) : Prepared := match prepare outside data (eff greedy) with
  | .ok p => p
  | .error _ => ⟨default, ⟨[], [], 0⟩, ⟨.empty, [], [], [], [], []⟩, ⟨true, fun _ => 0⟩⟩

theorem read_ok : read.1 = .ok data := by
  have h : read.1.isOk = true := by decide +kernel
  unfold data
  cases e : read.1 with
  | ok d => rfl
  | error f => rw [e] at h; cases h

theorem prepare_ok (b : Bool) : prepare ideal data (eff b) = .ok (prepared b) := by
  have h : (prepare outside data (eff b)).isOk = true := by cases b <;> decide +kernel
  show prepare outside data (eff b) = .ok (prepared b)
  unfold prepared
  cases e : prepare outside data (eff b) with
  | ok d => rfl
  | error f => rw [e] at h; cases h

def raw : Raw := match sync (outcome outside.opt opts script).2.1.st with
  | .ok s => ⟨s.sets, s.choices, s.choosers, s.exprs⟩
  | .error _ => ⟨[], [], [], []⟩

theorem describes_raw : Describes (outcome outside.opt opts script).1 raw := by
  have h : (sync (outcome outside.opt opts script).2.1.st).isOk = true := by decide +kernel
  unfold raw
  cases e : sync (outcome outside.opt opts script).2.1.st with
  | ok s => exact describes (outcome_made _ _) e
  | error f => rw [e] at h; cases h

theorem build_raw : build raw = .ok data := by
  obtain ⟨r, h1, h2⟩ := C55_input_as_described _ _ _ read_ok
  rw [C55_at_most_one _ _ _ h1 describes_raw] at h2
  exact h2

theorem manageable : ManageableRaw raw ∧ Manageable data := by
  refine ⟨⟨by decide +kernel, ?_⟩, ⟨by decide +kernel, by decide +kernel, by decide +kernel, by decide +kernel, by decide +kernel, by decide +kernel⟩⟩
  intro e he
  have : raw.exprs = [] := by decide +kernel
  rw [this] at he; cases he

theorem trusted : Trusted ideal data.nc := by
  have : data.nc = 2 := by decide +kernel
  rw [this]
  exact ⟨Ex.counter_lawful, MainEx.counter_varied, fun _ => ideal_sound⟩

/-- There is a valid solution: Ann plays chess. -/
theorem solvable : ∃ s a, SchedShape data s ∧ Valid data s a ∧ Placed data s := by
  refine ⟨[some 0, some 0], [[1], [0]], ⟨by decide +kernel, ?_⟩, ?_, ?_⟩
  · intro c t h
    have hns : data.ns = 1 := by decide +kernel
    rw [hns]
    match c with
    | 0 => simp [slotAt] at h; omega
    | 1 => simp [slotAt] at h; omega
    | n + 2 => simp [slotAt] at h
  · refine (C01_feasibility_exact _ ?_ ?_ _ _ ⟨?_, ?_, ?_⟩ true ?_).1 rfl
    all_goals decide +kernel
  · unfold Placed
    decide +kernel

theorem scorable (b : Bool) : Scorable (prepared b).scoring data :=
  C60_every_solution_scored_partial raw _ describes_raw data build_raw manageable.1 manageable.2 ideal (eff b) (prepared b) (prepare_ok b)
    (FloatEx.identity_moderate _ _ (by decide +kernel))

/-- A greedy session that ends with tables of the cheapest solution. -/
example : ∃ g, Undisturbed (setup ideal (prepared true) (eff true)) (start (setup ideal (prepared true) (eff true))) g ∧ g.over ∧
    ∃ s a asg, Valid data s a ∧ report (prepared true) g = .ok (.tables none asg) ∧
      ∀ s' a', SchedShape data s' → Placed data s' → Valid data s' a' →
        totalCost data (ideal.cost ()) a ≤ totalCost data (ideal.cost ()) a' := by
  have h1 : data.slots.length = 1 := by decide +kernel
  have hin : (prepared true).input.ns = 1 := by decide +kernel
  obtain ⟨g, hg, ho⟩ := C59_session_ends (setup ideal (prepared true) (eff true)) hin
  refine ⟨g, hg, ho, ?_⟩
  rcases C59_greedy_optimal_partial raw _ describes_raw data build_raw manageable.1 manageable.2 ideal trusted ideal_exact (eff true)
    (by decide +kernel) (prepared true) (prepare_ok true) (fun _ => rfl) (fun _ _ _ => rfl) (fun _ => rfl)
    (scorable _) g hg ho h1 (by decide +kernel) rfl with ⟨_, h⟩ | ⟨s, a, x, _, _, h2, _, h4, _, h6⟩
  · exact absurd solvable h
  · exact ⟨s, a, x, h2, h4, h6⟩

/-- One that is not greedy. -/
example : ∃ g, Undisturbed (setup ideal (prepared false) (eff false)) (start (setup ideal (prepared false) (eff false))) g ∧ g.over ∧
    ∃ s a asg, Valid data s a ∧ report (prepared false) g = .ok (.tables none asg) ∧
      ∀ s' a' w w', SchedShape data s' → Placed data s' → Valid data s' a' → IsWorst data a w → IsWorst data a' w' →
        w < w' ∨ w = w' ∧ totalCost data (ideal.cost ()) a ≤ totalCost data (ideal.cost ()) a' := by
  have h1 : data.slots.length = 1 := by decide +kernel
  have hin : (prepared false).input.ns = 1 := by decide +kernel
  obtain ⟨g, hg, ho⟩ := C59_session_ends (setup ideal (prepared false) (eff false)) hin
  refine ⟨g, hg, ho, ?_⟩
  have hvals : ∀ p c x, pref data p c = some x → x ∈ data.prefLevels := by
    have : ∀ ch ∈ data.choosers, ∀ x ∈ ch.prefs, x ∈ data.prefLevels := by decide +kernel
    intro p c x h
    unfold pref at h
    cases hc : data.choosers[p]? with
    | none => rw [hc] at h; cases h
    | some ch =>
      rw [hc] at h
      exact this ch (List.mem_of_getElem? hc) x (List.mem_of_getElem? h)
  rcases C59_lexicographic_partial raw _ describes_raw data build_raw manageable.1 manageable.2 ideal trusted ideal_exact (eff false)
    (by decide +kernel) (prepared false) (prepare_ok false) (fun _ => rfl) (fun _ _ _ => rfl) (fun _ => rfl)
    (scorable _) g hg ho h1 (by decide +kernel) rfl hvals with ⟨_, h⟩ | ⟨s, a, x, _, _, h2, _, h4, _, h6⟩
  · exact absurd solvable h
  · exact ⟨s, a, x, h2, h4, h6⟩

end Wassign.SingleEx
