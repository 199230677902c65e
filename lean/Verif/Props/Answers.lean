import Verif.Proofs.Answers
import Verif.Props.Main
/-
C72: nothing better was ever seen.
-/
namespace Wassign
open Spec Build Threaded Main

section
variable {σ τ : Type} (pr : HProblem) (env : HEnv σ τ) (hw : WF pr.input) (hm : pr.input.maxPref ≤ u32Max)
  (hg : env.rng.Lawful) (Inv : τ → Prop) (hA : Shaped pr.input env.asolve Inv)
include hw hm hg hA

/-- **C72**: what one climb returns is the best of all answers the assignment solver gave during the climb — the Invalid solution if
none of them has a finite score —, however the climb ended. All of them: their number is the number of assignments counted. -/
theorem C72_best_of_the_climb (deadline : Bool) (st st' : HState σ τ) (hi : Inv st.asg) (s : Scheduling) (hs : SchedShape pr.input s)
    (sol : Solution) (h : Hill.solve pr env deadline st s = .ok (sol, st')) :
    ∃ xs sc, Answers pr env st.asg xs st'.asg ∧ st'.count = st.count + xs.length ∧ 0 < xs.length ∧
      pr.scoring.evaluate pr.input sol = .ok sc ∧ IsBest xs (sol, sc) := by
  obtain ⟨xs, sc, h1, h2, h3, _, h4, h5⟩ := solve_answers hw hm hg hA hi hs h
  exact ⟨xs, sc, h1, h2, h3, h4, h5⟩

end

section
variable {σ τ ρ : Type} (cfg : Setup σ τ ρ) (Inv : Nat → τ → Prop) (InvR : Nat → ρ → Prop) (hS : SetupWF cfg Inv InvR)
  (g : Session σ τ ρ) (hr : Run cfg (start cfg) g)
include hS hr

/-- **C72**: at every moment of every session, what a worker has recorded is the best of all answers its assignment solver has given
in completed iterations; their number is the number of assignments it has counted. -/
theorem C72_best_of_the_worker (tid : Nat) (w : Worker σ τ ρ) (hg : g.workers[tid]? = some w) :
    ∃ xs, Answers cfg.problem (cfg.env tid).toHEnv (cfg.init tid).hill.asg xs w.st.hill.asg ∧ w.st.hill.count = xs.length ∧
      w.st.progress.iterations ≤ xs.length ∧ OneMode cfg.problem.scoring.greedy xs ∧
      IsBest xs (w.st.progress.bestSolution, w.st.progress.bestScore) := by
  have hsok := run_ok hS (start_ok hS) hr
  have hlt : tid < workerCount cfg := by
    rw [← hsok.count]; exact (List.getElem?_eq_some_iff.1 hg).1
  obtain ⟨k, seen, evs, hwk⟩ := (hsok.ok tid w hg).worked
  obtain ⟨sched, rng, asg, hi, h1, h2⟩ := hS.fresh tid hlt
  obtain ⟨_, _, gs, e1, e2, e3, e4⟩ := history_answers (hS.worker tid hlt) hwk.history (by rw [hi]; exact h1) (by rw [hi]; exact h2)
  have hc0 : (cfg.init tid).hill.count = 0 := by rw [hi]; rfl
  have hb : IsBest seen w.st.best := by
    rw [hwk.best, (init_mode hS hlt).1]
    simpa using isBest_foldl seen [] (by simpa using hwk.mode) isBest_nil
  rw [← e1] at hb
  refine ⟨gs.flatMap Prod.fst, e2, by rw [e3, hc0, Nat.zero_add], ?_, ?_, isBest_flatten Prod.fst Prod.snd gs (fun a ha => (e4 a ha).2) hb⟩
  · rw [hwk.count, (init_mode hS hlt).2.1, ← hwk.length, ← e1, Nat.zero_add, List.length_map]
    clear e1 e2 e3 hb
    induction gs with
    | nil => simp
    | cons x gs ih =>
      rw [List.flatMap_cons, List.length_append, List.length_cons]
      have := (e4 x (by simp)).1
      have := ih (fun y hy => e4 y (List.mem_cons_of_mem _ hy))
      omega
  · intro x hx
    obtain ⟨a, ha, hx⟩ := List.mem_flatMap.1 hx
    exact (e4 a ha).2.1 x hx

/-- **C72**: whatever the interleaving, the result of a session is the best of all answers of the assignment solvers of all workers. -/
theorem C72_best_of_the_session (hok : ∀ w ∈ g.workers, w.phase ≠ .panicked) :
    ∃ sol sc, Threaded.wait g = .ok sol ∧ ∃ xs : Nat → List (Solution × Score),
      (∀ (tid : Nat) (w : Worker σ τ ρ), g.workers[tid]? = some w →
        Answers cfg.problem (cfg.env tid).toHEnv (cfg.init tid).hill.asg (xs tid) w.st.hill.asg ∧ w.st.hill.count = (xs tid).length) ∧
      IsBest ((List.range g.workers.length).flatMap xs) (sol, sc) := by
  obtain ⟨sol, sc, h1, h2, _⟩ := C21_best_of_all_workers cfg Inv InvR hS g hr hok
  have hex : ∀ tid : Nat, ∃ xs, ∀ w, g.workers[tid]? = some w →
      Answers cfg.problem (cfg.env tid).toHEnv (cfg.init tid).hill.asg xs w.st.hill.asg ∧ w.st.hill.count = xs.length ∧
      OneMode cfg.problem.scoring.greedy xs ∧ IsBest xs (w.st.progress.bestSolution, w.st.progress.bestScore) := by
    intro tid
    cases h : g.workers[tid]? with
    | none => exact ⟨[], by intro w h; cases h⟩
    | some w =>
      obtain ⟨xs, e1, e2, _, e3, e4⟩ := C72_best_of_the_worker cfg Inv InvR hS g hr tid w h
      exact ⟨xs, by intro w' h'; cases h'; exact ⟨e1, e2, e3, e4⟩⟩
  obtain ⟨xs, hxs⟩ := Classical.axiomOfChoice hex
  refine ⟨sol, sc, h1, xs, fun tid w hw => ⟨(hxs tid w hw).1, (hxs tid w hw).2.1⟩, ?_⟩
  have hmap : (List.range g.workers.length).map (fun tid => ((g.workers[tid]?).elim nothing
      (fun w => (w.st.progress.bestSolution, w.st.progress.bestScore)))) =
      g.workers.map (fun w => (w.st.progress.bestSolution, w.st.progress.bestScore)) := by
    apply List.ext_getElem
    · simp
    · intro tid a1 a2
      simp only [List.length_map, List.length_range] at a1
      rw [List.getElem_map, List.getElem_map, List.getElem_range, List.getElem?_eq_getElem a1]
      rfl
  refine isBest_flatten (g := cfg.problem.scoring.greedy) xs (fun tid => ((g.workers[tid]?).elim nothing
      (fun w => (w.st.progress.bestSolution, w.st.progress.bestScore)))) _ ?_ (by rw [hmap]; exact h2)
  intro tid ht
  have hlt := List.mem_range.1 ht
  obtain ⟨_, _, e3, e4⟩ := hxs tid _ (List.getElem?_eq_getElem hlt)
  rw [List.getElem?_eq_getElem hlt]
  exact ⟨e3, e4⟩

end

theorem answers_scored {σ τ : Type} {pr : HProblem} {env : HEnv σ τ} {t t' : τ} {xs : List (Solution × Score)}
    (h : Answers pr env t xs t') : ∀ x ∈ xs, pr.scoring.evaluate pr.input x.1 = .ok x.2 := by
  induction h with
  | none => simp
  | more _ _ he ih =>
    intro x hx
    rcases List.mem_append.1 hx with hx | hx
    · exact ih x hx
    · simp only [List.mem_singleton] at hx
      subst hx; exact he

section
variable {F σ : Type} (raw : Raw) (tr : List Reader.Event) (hdes : Describes tr raw) (d : InputData) (h : build raw = .ok d)
  (o : Outside F σ) (hrng : o.rng.Lawful) (opts : Opts F) (p : Prepared) (hp : prepare o d opts = .ok p)
  (g : Session σ ASolver (σ × Nat)) (hg : Run (setup o p opts) (start (setup o p opts)) g)
  (hok : ∀ w ∈ g.workers, w.phase ≠ .panicked)
include hdes h hrng hp hg hok

/-- **C72** for the program, whatever the random engine, the clocks, the threads and the MIP backend do: if it prints a timetable, no
answer that any worker's assignment solver gave during the run has a better score; if it prints that there is no solution, none
of these answers has a finite score. -/
theorem C72_nothing_better_seen : ∃ xs : Nat → List (Solution × Score),
    (∀ (tid : Nat) (w : Worker σ ASolver (σ × Nat)), g.workers[tid]? = some w →
      Answers (setup o p opts).problem ((setup o p opts).env tid).toHEnv ASolver.new (xs tid) w.st.hill.asg ∧
      w.st.hill.count = (xs tid).length) ∧
    ((report p g = .ok .noSolution ∧ ∀ tid < g.workers.length, ∀ x ∈ xs tid, x.2.isFinite = false) ∨
     ∃ s a sc sched asg, report p g = .ok (.tables sched asg) ∧ (∃ table, asg = csv table ∧ AssignmentTable d s a table) ∧
      p.scoring.evaluate d (.complete s a) = .ok sc ∧ sc.isFinite = true ∧
      ∀ tid < g.workers.length, ∀ x ∈ xs tid, sc.le x.2) := by
  obtain ⟨hin, hS⟩ := setup_wf hdes h hrng hp
  have hmax := fun q hq => ((described_fit hdes).1 q hq).2.1
  obtain ⟨m, written, hb⟩ := build_spec hmax h
  obtain ⟨sol, sc, h1, xs, h2, h3⟩ := C72_best_of_the_session _ _ _ hS g hg hok
  have hrep := report_ok hdes h hrng hp hg hok
  subst hin
  refine ⟨xs, h2, ?_⟩
  rcases h3 with ⟨e, h3⟩ | ⟨e, hf, h3⟩
  · cases e
    left
    refine ⟨?_, fun tid ht x hx => h3 x (List.mem_flatMap.2 ⟨tid, List.mem_range.2 ht, hx⟩)⟩
    unfold report
    rw [h1]; rfl
  · right
    obtain ⟨tid, ht, hx⟩ := List.mem_flatMap.1 e
    have hlt := List.mem_range.1 ht
    have hev : p.scoring.evaluate p.input sol = .ok sc := by
      have ha := (h2 tid _ (List.getElem?_eq_getElem hlt)).1
      exact answers_scored ha _ hx
    rcases hrep with ⟨e1, e2⟩ | ⟨s, a, x, sched, e1, e2, _, _, _, e3, _⟩
    · exfalso
      obtain ⟨sol', hw', hiff, _⟩ := C21_invalid_iff _ _ _ hS g hg (by
        have := hb.ncI32
        show p.input.nc ≤ u32Max
        unfold i32Max at this; unfold u32Max; omega) hok
      rw [h1] at hw'; cases hw'
      rw [hiff.2 e2] at hev
      cases hev
      exact absurd hf (Bool.not_eq_true _ ▸ Score.infinite_not_finite)
    · rw [h1] at e1; cases e1
      exact ⟨s, a, sc, sched, x, e2, e3, hev, hf, fun tid ht x hx => h3 x (List.mem_flatMap.2 ⟨tid, List.mem_range.2 ht, hx⟩)⟩

end

/-! ### The theorems apply -/

namespace AnswersEx
open MainEx

/-- A climb in which 25 answers are seen. -/
example : ∃ xs sc sol st', Hill.solve HillEx.prob HillEx.env false HillEx.start Ex.sch = .ok (sol, st') ∧
    Answers HillEx.prob HillEx.env HillEx.start.asg xs st'.asg ∧ 1 < xs.length ∧ IsBest xs (sol, sc) ∧ sc.isFinite = true := by
  obtain ⟨st', h, _⟩ := HillEx.climbs
  obtain ⟨xs, sc, h1, h2, h3, h4, h5⟩ := C72_best_of_the_climb HillEx.prob HillEx.env Ex.inp_wf (by decide) Ex.counter_lawful _
    HillEx.shaped false HillEx.start st' trivial Ex.sch AsgEx.sch_shape _ h
  have hc : ((Hill.solve HillEx.prob HillEx.env false HillEx.start Ex.sch).toOption.map (fun r => r.2.count)) = some 25 := by decide +kernel
  rw [h] at hc
  have hc : st'.count = 25 := by simpa [Except.toOption] using hc
  have h0 : HillEx.start.count = 0 := rfl
  refine ⟨xs, sc, _, st', h, h1, by omega, h5, ?_⟩
  rcases h5 with ⟨e, _⟩ | ⟨_, e, _⟩
  · cases e
  · exact e

/-- Two workers, of which one sees 26 answers and the other a single one. -/
example : (ThEx.final false).workers.map (fun w => w.st.hill.count) = [26, 1] ∧
    (∀ w ∈ (ThEx.final false).workers, w.phase ≠ .panicked) ∧
    Run (ThEx.cfg false) (start (ThEx.cfg false)) (ThEx.final false) := by
  refine ⟨by decide +kernel, ?_, ThEx.exec_run _ _ _⟩
  have h : (ThEx.final false).workers.map (fun w => w.phase) = [.finished, .finished] := by decide +kernel
  intro w hw e
  have : w.phase ∈ (ThEx.final false).workers.map (fun w => w.phase) := List.mem_map.2 ⟨w, hw, rfl⟩
  rw [h, e] at this
  simp at this

/-- The whole program: four workers have seen answers, and the printed timetable is at most as bad as all of them. -/
theorem seen : ∃ xs : Nat → List (Solution × Score), 0 < (xs 0).length ∧ 0 < (xs 3).length ∧
    ∃ s a sc sched asg, report prepared final = .ok (.tables sched asg) ∧ prepared.scoring.evaluate data (.complete s a) = .ok sc ∧
      ∀ tid < 4, ∀ x ∈ xs tid, sc.le x.2 := by
  obtain ⟨raw, hd, hb⟩ := C55_input_as_described _ _ _ read_ok
  have hlen : final.workers.length = 4 := by
    have := congrArg List.length final_phases
    simpa using this
  have hok : ∀ w ∈ final.workers, w.phase ≠ .panicked := by
    intro w hw e
    have h := List.mem_map_of_mem (f := fun w => (w.phase, w.started, w.st.progress.iterations)) hw
    rw [final_phases] at h
    simp at h
    rw [h.1] at e; cases e
  obtain ⟨xs, h1, h2⟩ := C72_nothing_better_seen raw _ hd data hb outside Ex.counter_lawful (Reader.effectiveOptions MainEx.read.2) prepared
    prepare_ok final (ThEx.exec_run cfg _ _) hok
  have hcount : final.workers.map (fun w => decide (0 < w.st.hill.count)) = [true, true, true, true] := by decide +kernel
  have pos : ∀ tid < 4, 0 < (xs tid).length := by
    intro tid ht
    have hw : final.workers[tid]? = some final.workers[tid] := List.getElem?_eq_getElem (by omega)
    rw [← (h1 tid _ hw).2]
    have : decide (0 < final.workers[tid].st.hill.count) ∈ final.workers.map (fun w => decide (0 < w.st.hill.count)) :=
      List.mem_map.2 ⟨_, List.getElem_mem _, rfl⟩
    rw [hcount] at this
    simpa using this
  refine ⟨xs, pos 0 (by omega), pos 3 (by omega), ?_⟩
  rcases h2 with ⟨e, _⟩ | ⟨s, a, sc, sched, asg, e1, _, e2, _, e3⟩
  · rw [reported] at e; cases e
  · exact ⟨s, a, sc, sched, asg, e1, e2, fun tid ht => e3 tid (by omega)⟩

end AnswersEx

end Wassign
