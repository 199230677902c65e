import Verif.Props.Pareto
/-
C10 for the program: how badly off the worst-off chooser is in what is printed.
-/
namespace Wassign
open Spec Build Threaded Main Reader Hill
variable {F σ : Type}

section
variable (raw : Raw) (tr : List Reader.Event) (hdes : Describes tr raw) (d : InputData) (h : build raw = .ok d)
  (hr : ManageableRaw raw) (hd : Manageable d) (o : Outside F σ) (ho : Trusted o d.nc)
  (hx : ∀ tid, Exact (o.backend tid))
  (opts : Opts F) (hcs : 0 ≤ opts.csTimeout) (p : Prepared) (hp : prepare o d opts = .ok p)
  (hl : ∀ tid t, o.lateAsg tid t = false)
  (g : Session σ ASolver (σ × Nat)) (hg : Run (setup o p opts) (start (setup o p opts)) g)
include hdes h hr hd ho hx hcs hp hl hg

/-- Whatever the program prints was answered by the assignment solver of one of its workers, none of whose answers so far was cut short
by the clock. -/
theorem printed_untimed :
    report p g = .ok .noSolution ∨
    ∃ s a sched asg, SchedShape d s ∧ Shape d s a ∧ Valid d s a ∧ Placed d s ∧ report p g = .ok (.tables sched asg) ∧
      (∃ table, asg = csv table ∧ AssignmentTable d s a table) ∧
      ∃ tid sv sv', Reach (asgProblem o p opts) (unclocked (asgEnv o tid)) true sv ∧
        Asg.solveUntil (asgProblem o p opts) (unclocked (asgEnv o tid)) false sv s = .ok (some a, sv') := by
  have hmax := fun q hq => ((described_fit hdes).1 q hq).2.1
  have hcalm := C49_no_worker_panics raw d hmax h hr hd o ho opts hcs p hp g hg
  have hrep := report_ok hdes h ho.lawful hp hg hcalm
  have hpp := hp
  unfold prepare at hpp
  simp only [R.bind_eq_ok] at hpp
  obtain ⟨an, han, S, hS, hpp⟩ := hpp
  obtain ⟨hok, hlev', hlast⟩ := problemOk_of_built raw d hmax h hd.nodes (asgProblem o p opts) (by cases hpp; rfl) (by cases hpp; exact hS)
  have hin : p.input = d := by cases hpp; rfl
  subst hin
  rcases hrep with ⟨e, _⟩ | ⟨s, a, x, sched, hwait, hre, hs, hv, hpl, ht, _⟩
  · exact .inl e
  right
  have hA := fun tid => untimed_shaped (env := asgEnv o tid) hok hlev' (unclocked_backend (env := asgEnv o tid) (hx tid)).1 (hl tid)
  have hworkers := run_kept (cfg := setup o p opts)
    (P := fun tid st => Recorded (setup o p opts).problem ((setup o p opts).env tid) (Untimed (asgProblem o p opts) (asgEnv o tid)) st)
    (fun tid => ⟨.new, .invalid⟩)
    (fun tid k st st' hc he =>
      iterate_recorded (pr := (setup o p opts).problem) (env := (setup o p opts).env tid) ho.lawful (hA tid) (by
        intro r s r' e
        obtain ⟨e1, e2⟩ := Search.nextScheduling_feasible (source_next e)
        exact ⟨e1, schedFeasible_range e1 e2⟩) 1 k st st' hc he)
    (fun tid st hc => hc) hg
  have hcol : wait g = .ok ((g.workers.map (·.st.best)).foldl keep nothing).1 := by
    unfold Threaded.wait
    rw [collect_ok hcalm]
  rw [hcol] at hwait
  injection hwait with hwait
  have hmem : (g.workers.map (·.st.best)).foldl keep nothing ∈ g.workers.map (·.st.best) := by
    rcases keep_mem (g.workers.map (·.st.best)) nothing with e | e
    · rw [e] at hwait; cases hwait
    · exact e.1
  obtain ⟨w, hw, hwb⟩ := List.mem_map.1 hmem
  rw [← hwb] at hwait
  obtain ⟨tid, htid⟩ := List.mem_iff_getElem?.1 hw
  obtain ⟨_, hfrom⟩ := hworkers tid w htid
  obtain ⟨t, t', hu, hask⟩ := hfrom.made s a hwait
  have hsha : Shape p.input s a := (hA tid).shape _ _ _ _ hu hs hask
  exact ⟨s, a, sched, x, hs, hsha, hv, hpl, hre, ht, tid, _, _, hu, solve_untimed (pr := asgProblem o p opts) (env := asgEnv o tid) (hl tid) hask⟩

/-- **C10** for the program, partial: without `--greedy`, if no solving of an assignment is cut off by the clock, what is printed stays
within every preference level — not below the bound of the critical set analysis — within which some valid assignment of the printed
scheduling stays. Missing: the levels are not the preferences (C26), linked choices must not be separated (as C07). -/
theorem C10_printed_least_level_partial (hgr : opts.greedy = false) :
    report p g = .ok .noSolution ∨
    ∃ s a sched asg, SchedShape d s ∧ Shape d s a ∧ Valid d s a ∧ Placed d s ∧ report p g = .ok (.tables sched asg) ∧
      (∃ table, asg = csv table ∧ AssignmentTable d s a table) ∧
      (LinksScheduled d s → ∀ a', Valid d s a' → ∀ l ∈ d.prefLevels, p.analysis.preferenceBound ≤ l → WithinLimit d a' l → WithinLimit d a l) := by
  have hmax := fun q hq => ((described_fit hdes).1 q hq).2.1
  have hpp := hp
  unfold prepare at hpp
  simp only [R.bind_eq_ok] at hpp
  obtain ⟨an, han, S, hS, hpp⟩ := hpp
  obtain ⟨hok, hlev', _⟩ := problemOk_of_built raw d hmax h hd.nodes (asgProblem o p opts) (by cases hpp; rfl) (by cases hpp; exact hS)
  have hin : p.input = d := by cases hpp; rfl
  rcases printed_untimed raw tr hdes d h hr hd o ho hx opts hcs p hp hl g hg with e | ⟨s, a, sched, asg, h1, h2, h3, h4, h5, h6, tid, sv, sv', h7, h8⟩
  · exact .inl e
  refine .inr ⟨s, a, sched, asg, h1, h2, h3, h4, h5, h6, ?_⟩
  subst hin
  intro hlinks a' hv' l hlm hbl hw
  obtain ⟨q1, q2, q3⟩ := unclocked_backend (env := asgEnv o tid) (hx tid)
  obtain ⟨l0, _, hw0, hleast⟩ := C10_least_level_partial (asgProblem o p opts) (unclocked (asgEnv o tid)) hok hlev' q1 hgr q3 sv h7 s h1 hlinks a sv' h8
  have := hleast l hlm hbl a' ⟨hv'.onePerSlot, hv'.onlyScheduled, hv'.bounds, hv'.asg⟩ hw
  intro pp c y y1 y2
  exact Nat.le_trans (hw0 pp c y y1 y2) this

/-- **C10** for the program, partial: without `--greedy`, if no solving of an assignment is cut off by the clock, every preference is a
preference level, and the bound of the critical set analysis is not wrong (`C15_program_bound_partial`), then nobody's valid assignment of
the printed scheduling has a better worst preference than the one printed. -/
theorem C10_printed_least_worst_partial (hgr : opts.greedy = false) (hvals : ∀ q c x, pref d q c = some x → x ∈ d.prefLevels)
    (hbound : ∀ s a w, Shape d s a → Valid d s a → IsWorst d a w → p.analysis.preferenceBound ≤ w) :
    report p g = .ok .noSolution ∨
    ∃ s a sched asg, SchedShape d s ∧ Shape d s a ∧ Valid d s a ∧ Placed d s ∧ report p g = .ok (.tables sched asg) ∧
      (∃ table, asg = csv table ∧ AssignmentTable d s a table) ∧
      (LinksScheduled d s → ∀ a' w w', Shape d s a' → Valid d s a' → IsWorst d a w → IsWorst d a' w' → w ≤ w') := by
  have hmax := fun q hq => ((described_fit hdes).1 q hq).2.1
  obtain ⟨_, hzero, _⟩ := C26_levels_partial raw d hmax h
  rcases C10_printed_least_level_partial raw tr hdes d h hr hd o ho hx opts hcs p hp hl g hg hgr with
    e | ⟨s, a, sched, asg, h1, h2, h3, h4, h5, h6, h7⟩
  · exact .inl e
  refine .inr ⟨s, a, sched, asg, h1, h2, h3, h4, h5, h6, ?_⟩
  intro hlinks a' w w' hsh' hv' hw hw'
  have hm : w' ∈ d.prefLevels := by
    rcases hw'.attained with e | ⟨p, c, _, h2⟩
    · rw [e]; exact hzero
    · exact hvals p c w' h2
  rcases hw.attained with e | ⟨q, c, f1, f2⟩
  · omega
  · exact h7 hlinks a' hv' w' hm (hbound s a' w' hsh' hv' hw') hw'.upper q c w f1 f2

end

/-- **C15** for the program, partial: the bound the program works with is a lower bound for the worst preference of every solution, if every
preference is a preference level and the analysis is switched off, there is a single slot, `--greedy` is given, or the minima of all choices fit into all
slots but one. -/
theorem C15_program_bound_partial (raw : Raw) (d : InputData) (hmax : ∀ q ∈ raw.choices, q.max ≤ u32Max) (h : build raw = .ok d)
    (hr : ManageableRaw raw) (hd : Manageable d) (o : Outside F σ) (opts : Opts F) (p : Prepared) (hp : prepare o d opts = .ok p)
    (hvals : ∀ q c x, pref d q c = some x → x ∈ d.prefLevels)
    (hcase : opts.noCs = true ∨ opts.greedy = true ∨ d.ns ≤ 1 ∨ 0 < d.np ∧ (d.choices.map (·.min)).sum ≤ d.np * (d.ns - 1)) :
    ∀ s a w, Shape d s a → Valid d s a → IsWorst d a w → p.analysis.preferenceBound ≤ w := by
  intro s a w hsh hv hw
  obtain ⟨m, written, hb⟩ := build_spec hmax h
  obtain ⟨hz, hnc', hns'⟩ := sizes_of_manageable hb hr hd
  obtain ⟨hsorted, hzero, hmem, _⟩ := C26_levels_partial raw d hmax h
  have hm : w ∈ d.prefLevels := by
    rcases hw.attained with e | ⟨p, c, _, h2⟩
    · rw [e]; exact hzero
    · exact hvals p c w h2
  obtain ⟨c1, c2⟩ := C56_critical_sets o d opts p hp
  by_cases hoff : opts.noCs = true ∨ opts.greedy = true ∨ d.ns ≤ 1
  · rw [(c1 hoff).1]; omega
  · rcases hcase with e | e | e | ⟨e1, e2⟩
    · exact absurd (.inl e) hoff
    · exact absurd (.inr (.inl e)) hoff
    · exact absurd (.inr (.inr e)) hoff
    · push Not at hoff
      have hA := c2 (by simpa using hoff.1) (by simpa using hoff.2.1) (by omega)
      by_contra hlt
      exact C15_bound_is_lower_bound_partial d hb.wf hz ⟨hsorted, hmem⟩ true (!opts.noCsSimp) p.analysis hA e1 e2 w hm (by omega) s a hsh hv
        (fun q c x _ e3 e4 => hw.upper q c x e3 e4)

end Wassign
