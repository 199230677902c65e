import Verif.Proofs.Threaded
import Verif.Proofs.Source
import Verif.Proofs.AsgShape
import Verif.Props.Hill
/-
Property theorems about the workers: C20-C23.

`WorkerWF` and `SetupWF` (Proofs/Shotgun.lean, Proofs/Threaded.lean) ask: a well-formed input, a lawful random engine, an
assignment solver whose assignments have the right dimensions, a scheduling source whose schedulings have the right
dimensions, and (for the session) that every worker starts fresh and reports under its own index.
-/
namespace Wassign
open Spec Threaded

variable {σ τ ρ : Type}

/-! ### C20 -/

/-- Calls of `iterate`, one after the other; the result is the total number of iterations done. -/
inductive Calls (pr : HProblem) (env : SEnv σ τ ρ) (deadline : Bool) : SState σ τ ρ → Nat → SState σ τ ρ → Prop
  | none (st : SState σ τ ρ) : Calls pr env deadline st 0 st
  | call {st st' st'' : SState σ τ ρ} {n k k' : Nat} : Calls pr env deadline st k st' →
      Shotgun.iterate pr env deadline n st' = .ok (k', st'') → Calls pr env deadline st (k + k') st''

theorem calls_worked {pr : HProblem} {env : SEnv σ τ ρ} {Inv : τ → Prop} {InvR : ρ → Prop} (hE : WorkerWF pr env Inv InvR)
    {dl : Bool} {st st' : SState σ τ ρ} {k : Nat} (h : Calls pr env dl st k st') (hb : st.best.2.InMode pr.scoring.greedy)
    (hi : Inv st.hill.asg) (hr : InvR st.sched) :
    ∃ seen evs, Worked pr env dl st k st' seen evs ∧ Inv st'.hill.asg ∧ InvR st'.sched := by
  induction h with
  | none => exact ⟨[], [], Worked.refl rfl rfl rfl rfl, hi, hr⟩
  | call _ hc ih =>
    obtain ⟨s1, e1, w1, i1, r1⟩ := ih
    obtain ⟨s2, e2, w2, _, i2, r2⟩ := iterate_worked hE _ (worked_mode hb w1) i1 r1 hc
    exact ⟨_, _, w1.trans w2, i2, r2⟩

/-- **C20**: after any number of calls of `iterate` on a fresh worker, what it has recorded is the best of the results
of all its iterations, and its counter is the number of iterations. -/
theorem C20_best_of_all_iterations (pr : HProblem) (env : SEnv σ τ ρ) (Inv : τ → Prop) (InvR : ρ → Prop)
    (hE : WorkerWF pr env Inv InvR) (deadline : Bool) (sched : ρ) (rng : σ) (asg : τ) (hi : Inv asg) (hr : InvR sched)
    (k : Nat) (st : SState σ τ ρ) (h : Calls pr env deadline (Shotgun.new sched rng asg) k st) :
    ∃ seen, History pr env deadline sched (Shotgun.new sched rng asg).hill seen st.sched st.hill ∧ seen.length = k ∧
      st.progress.iterations = k ∧ IsBest seen (st.progress.bestSolution, st.progress.bestScore) := by
  obtain ⟨seen, evs, hw, _, _⟩ := calls_worked hE h (Score.inMode_infinite _) hi hr
  refine ⟨seen, hw.history, hw.length, ?_, ?_⟩
  · rw [hw.count]; exact Nat.zero_add _
  · have := isBest_foldl (g := pr.scoring.greedy) seen [] (b := nothing) (by simpa using hw.mode) isBest_nil
    have e := hw.best
    have e : (st.progress.bestSolution, st.progress.bestScore) = seen.foldl keep nothing := e
    rw [e]; simpa using this

/-- **C20**: the recorded solution is Invalid (with the infinite score) or a complete valid solution, in which every
choice that is not optional takes place, with its own score. -/
theorem C20_recorded_is_valid (pr : HProblem) (env : SEnv σ τ ρ) (Inv : τ → Prop) (InvR : ρ → Prop)
    (hE : WorkerWF pr env Inv InvR) (hn : pr.input.nc ≤ u32Max) (deadline : Bool) (sched : ρ) (rng : σ) (asg : τ) (hi : Inv asg)
    (hr : InvR sched) (k : Nat) (st : SState σ τ ρ) (h : Calls pr env deadline (Shotgun.new sched rng asg) k st) :
    (st.progress.bestSolution = .invalid ∧ st.progress.bestScore = Score.infinite) ∨
    ∃ s a, st.progress.bestSolution = .complete s a ∧ Valid pr.input s a ∧ Placed pr.input s ∧ st.progress.bestScore.isFinite = true ∧
      pr.scoring.evaluate pr.input (.complete s a) = .ok st.progress.bestScore := by
  obtain ⟨seen, evs, hw, _, _⟩ := calls_worked hE h (Score.inMode_infinite _) hi hr
  have hb := isBest_foldl (g := pr.scoring.greedy) seen [] (b := nothing) (by simpa using hw.mode) isBest_nil
  have e : (st.progress.bestSolution, st.progress.bestScore) = seen.foldl keep nothing := hw.best
  rw [← e] at hb
  rcases hb with ⟨hb, _⟩ | ⟨hb, hf, _⟩
  · exact .inl ⟨congrArg Prod.fst hb, congrArg Prod.snd hb⟩
  · right
    have hf : st.progress.bestScore.isFinite = true := hf
    rcases hw.sound _ (by simpa using hb) with e | hg
    · have e' : st.progress.bestScore = Score.infinite := congrArg Prod.snd e
      rw [e'] at hf; exact absurd hf (by decide)
    · obtain ⟨s, a, hs, h1, h2, hpl⟩ := hg.whole
      have hs : st.progress.bestSolution = .complete s a := hs
      obtain ⟨s', a', e, hv⟩ := evaluate_finite_valid pr.scoring hE.wf hn (by
        intro s' a' e'
        rw [show ((st.progress.bestSolution, st.progress.bestScore) : Solution × Score).1 = .complete s a from hs] at e'
        cases e'; exact h2) hg.eval hf
      rw [show ((st.progress.bestSolution, st.progress.bestScore) : Solution × Score).1 = .complete s a from hs] at e
      cases e
      refine ⟨s, a, hs, hv, hpl, hf, ?_⟩
      rw [← hs]; exact hg.eval

/-- **C20**: `iterate` does at most as many iterations as asked for, and fewer only if it finds the deadline reached
or the scheduling source finds nothing. -/
theorem C20_iterations_done (pr : HProblem) (env : SEnv σ τ ρ) (deadline : Bool) : ∀ (n k : Nat) (st st' : SState σ τ ρ),
    Shotgun.iterate pr env deadline n st = .ok (k, st') → k ≤ n ∧ st'.progress.iterations = st.progress.iterations + k ∧
      (k < n → (deadline = true ∧ ∃ t, env.lateS t = true) ∨ ∃ r, env.next r = .ok (none, st'.sched)) := by
  intro n
  induction n with
  | zero => intro k st st' h; cases h; exact ⟨Nat.le_refl _, rfl, by omega⟩
  | succ n ih =>
    intro k st st' h
    obtain ⟨c1, c2, c3⟩ := sclock_eq env deadline st
    unfold Shotgun.iterate at h
    simp only at h
    split at h
    · rename_i hl
      cases h
      refine ⟨Nat.zero_le _, by rw [c3]; rfl, fun _ => .inl ?_⟩
      unfold Shotgun.clock at hl
      cases hd : deadline
      · rw [hd] at hl; simp at hl
      · rw [hd] at hl; simp only [if_true] at hl; exact ⟨rfl, _, hl⟩
    · simp only [R.bind_eq_ok] at h
      obtain ⟨⟨x, r'⟩, hx, h⟩ := h
      cases x with
      | none =>
        simp only at h
        cases h
        exact ⟨Nat.zero_le _, by show (Shotgun.clock env deadline st).2.progress.iterations = _; rw [c3]; rfl,
          fun _ => .inr ⟨_, hx⟩⟩
      | some s =>
        simp only [R.bind_eq_ok] at h
        obtain ⟨⟨sol, h'⟩, hs, sc, hsc, ⟨k', st2⟩, hit, h⟩ := h
        cases h
        obtain ⟨a1, a2, a3⟩ := ih k' _ _ hit
        refine ⟨by omega, ?_, fun hlt => a3 (by omega)⟩
        rw [a2]
        show (Shotgun.record env sol sc _).progress.iterations + 1 + k' = _
        rw [(record_best env sol sc _).2.2.2.1]
        show (Shotgun.clock env deadline st).2.progress.iterations + 1 + k' = _
        rw [c3]; omega

/-- **C20** applies to the real sub-solvers: the scheduling search and the assignment solver meet what is asked of
them, for every clock and whatever the MIP backend answers. -/
theorem C20_real_worker (pr : AProblem) (aenv : AEnv) (hw : WF pr.input) (hm : pr.input.maxPref ≤ u32Max)
    (scoring : Scoring) (maxN : Nat) (g : RngOps σ) (hg : g.Lawful) (draws : Nat) (csTimeout : Int)
    (bound : Nat) (sets : Nat → List CriticalSet) (lateN : Nat → Nat → Nat → Bool) (late lateS : Nat → Bool) (w : Nat)
    (lpOf : ASolver → Nat) (deadline : Bool) :
    WorkerWF ⟨pr.input, scoring, maxN⟩ (⟨⟨w, g, draws, Asg.solveUntil pr aenv deadline, late, lpOf⟩,
      source g pr.input csTimeout bound sets lateN, lateS⟩ : SEnv σ ASolver (σ × Nat))
      (CacheShape pr.input) (fun _ => True) where
  wf := hw
  pref := hm
  lawful := hg
  shaped := shaped_any pr aenv deadline
  supplies := source_supplies g pr.input csTimeout bound sets lateN

/-! ### C21 -/

section
variable (cfg : Setup σ τ ρ) (Inv : Nat → τ → Prop) (InvR : Nat → ρ → Prop) (hS : SetupWF cfg Inv InvR)
  (g : Session σ τ ρ) (hr : Run cfg (start cfg) g)

/-- **C21**: whatever the interleaving, if a worker panicked, waiting reports `WorkerPanic`. -/
theorem C21_panic_reported (h : ∃ w ∈ g.workers, w.phase = .panicked) : Threaded.wait g = .error (.error "WorkerPanic") := by
  unfold Threaded.wait collect
  obtain ⟨e, he⟩ := foldlM_join_panic g.workers (Solution.invalid, Score.infinite) h
  rw [he]; rfl

include hS hr in
/-- **C21**: otherwise waiting returns the best of what all iterations of all workers have produced (`seen tid` is what
worker `tid` found), whatever the interleaving. -/
theorem C21_best_of_all_workers (hok : ∀ w ∈ g.workers, w.phase ≠ .panicked) :
    ∃ sol sc, Threaded.wait g = .ok sol ∧ IsBest (g.workers.map (fun w => (w.st.progress.bestSolution, w.st.progress.bestScore))) (sol, sc) ∧
      ∃ seen : Nat → List (Solution × Score),
        (∀ (tid : Nat) (w : Worker σ τ ρ), g.workers[tid]? = some w → History cfg.problem (cfg.env tid) true (cfg.init tid).sched
          (cfg.init tid).hill (seen tid) w.st.sched w.st.hill ∧ (seen tid).length = w.st.progress.iterations) ∧
        IsBest ((List.range g.workers.length).flatMap seen) (sol, sc) := by
  have hsok := run_ok hS (start_ok hS) hr
  have hex : ∀ tid : Nat, ∃ seen, ∀ w, g.workers[tid]? = some w → ∃ k evs,
      Worked cfg.problem (cfg.env tid) true (cfg.init tid) k w.st seen evs := by
    intro tid
    cases h : g.workers[tid]? with
    | none => exact ⟨[], by intro w h; cases h⟩
    | some w =>
      obtain ⟨k, seen, evs, hw⟩ := (hsok.ok tid w h).worked
      exact ⟨seen, by intro w' h'; cases h'; exact ⟨k, evs, hw⟩⟩
  obtain ⟨seen, hseen⟩ := Classical.axiomOfChoice hex
  have hmode : OneMode cfg.problem.scoring.greedy (g.workers.map (·.st.best)) := by
    intro x hx
    obtain ⟨w, hw, rfl⟩ := List.mem_map.1 hx
    obtain ⟨tid, hlt, he⟩ := List.mem_iff_getElem.1 hw
    have hg : g.workers[tid]? = some w := by rw [List.getElem?_eq_getElem hlt, he]
    obtain ⟨k, evs, hwk⟩ := hseen tid w hg
    refine worked_mode ?_ hwk
    rw [(init_mode hS (by rw [← hsok.count]; exact hlt)).1]; exact Score.inMode_infinite _
  have hbest : IsBest (g.workers.map (·.st.best)) ((g.workers.map (·.st.best)).foldl keep nothing) := by
    simpa using isBest_foldl (g.workers.map (·.st.best)) [] (by simpa using hmode) isBest_nil
  have hgood : ∀ tid ∈ List.range g.workers.length, OneMode cfg.problem.scoring.greedy (seen tid) ∧
      IsBest (seen tid) ((seen tid).foldl keep nothing) := by
    intro tid ht
    have hlt := List.mem_range.1 ht
    obtain ⟨k, evs, hwk⟩ := hseen tid _ (List.getElem?_eq_getElem hlt)
    refine ⟨hwk.mode, ?_⟩
    simpa using isBest_foldl (seen tid) [] (by simpa using hwk.mode) isBest_nil
  have hmap : (List.range g.workers.length).map (fun tid => (seen tid).foldl keep nothing) = g.workers.map (·.st.best) := by
    apply List.ext_getElem
    · simp
    · intro tid h1 h2
      simp only [List.length_map, List.length_range] at h1
      rw [List.getElem_map, List.getElem_map, List.getElem_range]
      obtain ⟨k, evs, hwk⟩ := hseen tid _ (List.getElem?_eq_getElem h1)
      rw [hwk.best, (init_mode hS (by rw [← hsok.count]; exact h1)).1]
  have hwait : Threaded.wait g = .ok ((g.workers.map (fun w => w.st.best)).foldl keep nothing).1 := by
    unfold Threaded.wait
    rw [collect_ok hok]
  generalize hz : (g.workers.map (fun w => w.st.best)).foldl keep nothing = z at hbest hwait
  refine ⟨z.1, z.2, hwait, hbest, seen, ?_, ?_⟩
  · intro tid w hw
    obtain ⟨k, evs, hwk⟩ := hseen tid w hw
    have hlt := (List.getElem?_eq_some_iff.1 hw).1
    refine ⟨hwk.history, ?_⟩
    rw [hwk.length, hwk.count, (init_mode hS (by rw [← hsok.count]; exact hlt)).2.1]; omega
  · exact isBest_flatten seen _ _ hgood (by rw [hmap]; exact hbest)

include hS hr in
/-- **C21**: the result is Invalid exactly if no worker has a finite score, and otherwise a complete valid solution
with a finite score, in which every choice that is not optional takes place. -/
theorem C21_invalid_iff (hn : cfg.problem.input.nc ≤ u32Max) (hok : ∀ w ∈ g.workers, w.phase ≠ .panicked) :
    ∃ sol, Threaded.wait g = .ok sol ∧ (sol = .invalid ↔ ∀ w ∈ g.workers, w.st.progress.bestScore.isFinite = false) ∧
      (sol = .invalid ∨ ∃ s a, sol = .complete s a ∧ Shape cfg.problem.input s a ∧ SchedShape cfg.problem.input s ∧
        Valid cfg.problem.input s a ∧ Placed cfg.problem.input s ∧
        ∃ sc, cfg.problem.scoring.evaluate cfg.problem.input sol = .ok sc ∧ sc.isFinite = true) := by
  obtain ⟨sol, sc, h1, h2, _⟩ := C21_best_of_all_workers cfg Inv InvR hS g hr hok
  have hsok := run_ok hS (start_ok hS) hr
  refine ⟨sol, h1, ?_⟩
  rcases h2 with ⟨e, h2⟩ | ⟨h2, h3, h4⟩
  · cases e
    refine ⟨⟨fun _ w hw => h2 _ (List.mem_map.2 ⟨w, hw, rfl⟩), fun _ => rfl⟩, .inl rfl⟩
  · obtain ⟨w, hw, e⟩ := List.mem_map.1 h2
    cases e
    obtain ⟨tid, hlt, he⟩ := List.mem_iff_getElem.1 hw
    have hg : g.workers[tid]? = some w := by rw [List.getElem?_eq_getElem hlt, he]
    have htid : tid < workerCount cfg := by rw [← hsok.count]; exact hlt
    obtain ⟨k, seen, evs, hwk⟩ := (hsok.ok tid w hg).worked
    have hb : IsBest seen w.st.best := by
      rw [hwk.best, (init_mode hS htid).1]
      simpa using isBest_foldl seen [] (by simpa using hwk.mode) isBest_nil
    have h3 : w.st.progress.bestScore.isFinite = true := h3
    have hgood : Hill.Good cfg.problem (Placed cfg.problem.input) w.st.best := by
      rcases hb with ⟨e, _⟩ | ⟨hm, _⟩
      · rw [show w.st.progress.bestScore = w.st.best.2 from rfl, e] at h3; exact absurd h3 (by decide)
      · rcases hwk.sound _ hm with e | hgd
        · rw [show w.st.progress.bestScore = w.st.best.2 from rfl, e] at h3; exact absurd h3 (by decide)
        · exact hgd
    obtain ⟨s, a, hs, hss, hsh, hpl⟩ := hgood.whole
    have hs : w.st.progress.bestSolution = .complete s a := hs
    obtain ⟨s', a', e, hv⟩ := evaluate_finite_valid cfg.problem.scoring (hS.worker tid htid).wf hn (by
      intro s' a' e'
      rw [show w.st.best.1 = .complete s a from hs] at e'
      cases e'; exact hsh) hgood.eval h3
    rw [show w.st.best.1 = .complete s a from hs] at e
    cases e
    refine ⟨⟨?_, ?_⟩, .inr ⟨s, a, hs, hsh, hss, hv, hpl, _, hgood.eval, h3⟩⟩
    · intro e; rw [hs] at e; cases e
    · intro hno; rw [hno w hw] at h3; cases h3

end

/-! ### C22 -/

/-- The last value a worker has reported (0 before the first report). -/
def lastReported (f : Event → Option Nat) (evs : List Event) (w : Nat) : Nat :=
  (((evs.filter (fun e => decide (e.worker = w))).filterMap f).getLast?).getD 0

theorem announced_filter_mem {evs : List Event} {P : Event → Bool} {x : Solution × Score} :
    x ∈ announced (evs.filter P) ↔ ∃ e ∈ evs, P e = true ∧ e.best? = some x := by
  unfold announced
  rw [List.mem_filterMap]
  constructor
  · rintro ⟨e, he, hx⟩
    rw [List.mem_filter] at he
    exact ⟨e, he.1, he.2, hx⟩
  · rintro ⟨e, h1, h2, hx⟩
    exact ⟨e, List.mem_filter.2 ⟨h1, h2⟩, hx⟩

theorem isBest_congr {l l' : List (Solution × Score)} (h : ∀ x, x ∈ l ↔ x ∈ l') {b : Solution × Score} (hb : IsBest l b) :
    IsBest l' b := by
  rcases hb with ⟨e, hb⟩ | ⟨h1, h2, h3⟩
  · exact .inl ⟨e, fun x hx => hb x ((h x).2 hx)⟩
  · exact .inr ⟨(h b).1 h1, h2, fun x hx => h3 x ((h x).2 hx)⟩

/-- **C22**: however the events are ordered and split into polls (`past` are the batches of the earlier polls, `batch`
what this poll finds), the report shows the best of all solutions announced so far by known workers, with the
solution belonging to the score, and the sums of what the workers last reported. -/
theorem C22_report_is_best_so_far (n : Nat) (g : Bool) (past : List (List Event)) (batch : List Event)
    (hm : OneMode g (announced (past.flatten ++ batch))) :
    let tp := past.foldl (fun tp b => (poll tp b).2) (freshProgress n)
    let r := (poll tp batch).1
    let evs := past.flatten ++ batch
    IsBest (announced (evs.filter (fun e => decide (e.worker < n)))) (r.bestSolution, r.bestScore) ∧
    r.iterations = ((List.range n).map (lastReported (·.iterations) evs)).sum ∧
    r.assignments = ((List.range n).map (lastReported (·.assignments) evs)).sum ∧
    r.lp = ((List.range n).map (lastReported (·.lp) evs)).sum := by
  intro tp r evs
  have htp : batch.foldl deliver tp = (List.range n).map (fun w => (evs.filter (fun e => decide (e.worker = w))).foldl absorb .empty) := by
    show batch.foldl deliver (past.foldl _ _) = _
    rw [polls_eq, ← List.foldl_append, delivered]
  obtain ⟨h1, h2, h3, h4⟩ := summarize_eq (batch.foldl deliver tp)
  have hr : r = summarize (batch.foldl deliver tp) := rfl
  refine ⟨?_, ?_, ?_, ?_⟩
  · have e : (r.bestSolution, r.bestScore) = ((batch.foldl deliver tp).map Progress.best).foldl keep nothing := h1
    rw [e, htp, List.map_map]
    have hpt : ∀ w, (Progress.best ∘ fun w => (evs.filter (fun e => decide (e.worker = w))).foldl absorb .empty) w =
        (announced (evs.filter (fun e => decide (e.worker = w)))).foldl keep nothing := by
      intro w
      exact absorb_fold_best _ _
    rw [List.map_congr_left (fun w _ => hpt w)]
    have hgood : ∀ w ∈ List.range n, OneMode g (announced (evs.filter (fun e => decide (e.worker = w)))) ∧
        IsBest (announced (evs.filter (fun e => decide (e.worker = w))))
          ((announced (evs.filter (fun e => decide (e.worker = w)))).foldl keep nothing) := by
      intro w _
      have hmw : OneMode g (announced (evs.filter (fun e => decide (e.worker = w)))) := by
        intro x hx
        obtain ⟨e, he, _, hb⟩ := announced_filter_mem.1 hx
        exact hm x (List.mem_filterMap.2 ⟨e, he, hb⟩)
      exact ⟨hmw, by simpa using isBest_foldl _ [] (by simpa using hmw) isBest_nil⟩
    have hmode : OneMode g ((List.range n).map (fun w => (announced (evs.filter (fun e => decide (e.worker = w)))).foldl keep nothing)) := by
      intro x hx
      obtain ⟨w, hw, rfl⟩ := List.mem_map.1 hx
      exact (hgood w hw).2.mode (hgood w hw).1
    have hb : IsBest ((List.range n).map (fun w => (announced (evs.filter (fun e => decide (e.worker = w)))).foldl keep nothing))
        (((List.range n).map (fun w => (announced (evs.filter (fun e => decide (e.worker = w)))).foldl keep nothing)).foldl keep nothing) := by
      simpa using isBest_foldl _ [] (by simpa using hmode) isBest_nil
    refine isBest_congr ?_ (isBest_flatten (fun w => announced (evs.filter (fun e => decide (e.worker = w)))) _ _ hgood hb)
    intro x
    rw [List.mem_flatMap, announced_filter_mem]
    constructor
    · rintro ⟨w, hw, hx⟩
      obtain ⟨e, he, hew, hb⟩ := announced_filter_mem.1 hx
      have := of_decide_eq_true hew
      subst this
      exact ⟨e, he, decide_eq_true (List.mem_range.1 hw), hb⟩
    · rintro ⟨e, he, hew, hb⟩
      exact ⟨e.worker, List.mem_range.2 (of_decide_eq_true hew), announced_filter_mem.2 ⟨e, he, decide_eq_true rfl, hb⟩⟩
  · rw [hr, h2, htp, List.map_map]
    refine congrArg List.sum (List.map_congr_left (fun w _ => ?_))
    exact fold_last (·.iterations) (·.iterations) absorb_iterations _ _
  · rw [hr, h3, htp, List.map_map]
    refine congrArg List.sum (List.map_congr_left (fun w _ => ?_))
    exact fold_last (·.assignments) (·.assignments) absorb_assignments _ _
  · rw [hr, h4, htp, List.map_map]
    refine congrArg List.sum (List.map_congr_left (fun w _ => ?_))
    exact fold_last (·.lp) (·.lp) absorb_lp _ _

/-- **C22**: the reported score never gets worse from one poll to a later one. -/
theorem C22_never_worse (n : Nat) (g : Bool) (past : List (List Event)) (batch : List Event) (between : List (List Event))
    (later : List Event) (hm : OneMode g (announced ((past ++ [batch] ++ between).flatten ++ later))) :
    let tp := past.foldl (fun tp b => (poll tp b).2) (freshProgress n)
    let tp' := (past ++ [batch] ++ between).foldl (fun tp b => (poll tp b).2) (freshProgress n)
    (poll tp' later).1.bestScore.le (poll tp batch).1.bestScore := by
  intro tp tp'
  have hsub : ∀ x, x ∈ announced (past.flatten ++ batch) → x ∈ announced ((past ++ [batch] ++ between).flatten ++ later) := by
    intro x hx
    simp only [announced, List.mem_filterMap] at hx ⊢
    obtain ⟨e, he, hb⟩ := hx
    refine ⟨e, ?_, hb⟩
    simp only [List.flatten_append, List.mem_append, List.flatten_cons, List.flatten_nil, List.append_nil] at he ⊢
    rcases he with he | he <;> simp [he]
  obtain ⟨h1, _⟩ := C22_report_is_best_so_far n g past batch (fun x hx => hm x (hsub x hx))
  obtain ⟨h2, _⟩ := C22_report_is_best_so_far n g (past ++ [batch] ++ between) later hm
  rcases h1 with ⟨e, _⟩ | ⟨h1, _⟩
  · have e : (poll tp batch).1.bestScore = Score.infinite := congrArg Prod.snd e
    rw [e]; exact Score.le_infinite _
  · refine h2.le ((poll tp batch).1.bestSolution, (poll tp batch).1.bestScore) ?_
    obtain ⟨e, he, hw, hb⟩ := announced_filter_mem.1 h1
    refine announced_filter_mem.2 ⟨e, ?_, hw, hb⟩
    simp only [List.flatten_append, List.mem_append, List.flatten_cons, List.flatten_nil, List.append_nil] at he ⊢
    rcases he with he | he <;> simp [he]

/-- **C22**: events of unknown workers change nothing. -/
theorem C22_unknown_workers_ignored (tp : List Progress) (e : Event) (h : tp.length ≤ e.worker) : deliver tp e = tp := by
  unfold deliver
  rw [List.getElem?_eq_none h]

/-- **C22**: when the session is over and all its events have arrived (per worker in the order sent, otherwise in any
order and with any further display events in between), the report shows the final solution and the exact number of
iterations. -/
theorem C22_final_report (cfg : Setup σ τ ρ) (Inv : Nat → τ → Prop) (InvR : Nat → ρ → Prop) (hS : SetupWF cfg Inv InvR)
    (g : Session σ τ ρ) (hr : Run cfg (start cfg) g) (hok : ∀ w ∈ g.workers, w.phase ≠ .panicked)
    (past : List (List Event)) (batch : List Event)
    (hall : ∀ (tid : Nat) (w : Worker σ τ ρ), g.workers[tid]? = some w →
      announced ((past.flatten ++ batch).filter (fun e => decide (e.worker = tid))) = announced w.st.hill.events ∧
      ((past.flatten ++ batch).filter (fun e => decide (e.worker = tid))).filterMap (·.iterations) =
        w.st.hill.events.filterMap (·.iterations)) :
    let tp := past.foldl (fun tp b => (poll tp b).2) (freshProgress (workerCount cfg))
    let r := (poll tp batch).1
    Threaded.wait g = .ok r.bestSolution ∧ r.iterations = (g.workers.map (·.st.progress.iterations)).sum ∧
    IsBest (g.workers.map (fun w => (w.st.progress.bestSolution, w.st.progress.bestScore))) (r.bestSolution, r.bestScore) := by
  intro tp r
  have hsok := run_ok hS (start_ok hS) hr
  have htp : batch.foldl deliver tp = (List.range g.workers.length).map
      (fun w => ((past.flatten ++ batch).filter (fun e => decide (e.worker = w))).foldl absorb .empty) := by
    show batch.foldl deliver (past.foldl _ _) = _
    rw [polls_eq, ← List.foldl_append, delivered, hsok.count]
  obtain ⟨h1, h2, _, _⟩ := summarize_eq (batch.foldl deliver tp)
  have hr' : r = summarize (batch.foldl deliver tp) := rfl
  have hwk : ∀ tid (hlt : tid < g.workers.length), ∃ k seen evs,
      Worked cfg.problem (cfg.env tid) true (cfg.init tid) k g.workers[tid].st seen evs ∧ (cfg.init tid).best = nothing ∧
      (cfg.init tid).progress.iterations = 0 ∧ g.workers[tid].st.hill.events = evs := by
    intro tid hlt
    obtain ⟨k, seen, evs, hw⟩ := (hsok.ok tid _ (List.getElem?_eq_getElem hlt)).worked
    obtain ⟨i1, i2, i3⟩ := init_mode hS (show tid < workerCount cfg by rw [← hsok.count]; exact hlt)
    exact ⟨k, seen, evs, hw, i1, i2, by rw [hw.events, i3]; rfl⟩
  have e0 : (r.bestSolution, r.bestScore) = (g.workers.map (·.st.best)).foldl keep nothing := by
    have e : (r.bestSolution, r.bestScore) = ((batch.foldl deliver tp).map Progress.best).foldl keep nothing := h1
    have e1 : (batch.foldl deliver tp).map Progress.best = g.workers.map (·.st.best) := by
      rw [htp, List.map_map]
      apply List.ext_getElem
      · simp
      · intro tid l1 l2
        simp only [List.length_map, List.length_range] at l1
        rw [List.getElem_map, List.getElem_map, List.getElem_range]
        obtain ⟨k, seen, evs, hw, i1, i2, i3⟩ := hwk tid l1
        refine (absorb_fold_best _ _).trans ?_
        rw [(hall tid _ (List.getElem?_eq_getElem l1)).1, hw.best, i3]
        have := hw.same
        rw [i1] at this
        rw [i1]
        exact this
    rw [e, e1]
  refine ⟨?_, ?_, ?_⟩
  · unfold Threaded.wait
    rw [collect_ok hok]
    have e2 : r.bestSolution = (r.bestSolution, r.bestScore).1 := rfl
    rw [e2, e0]
  · rw [hr', h2, htp, List.map_map]
    refine congrArg List.sum ?_
    apply List.ext_getElem
    · simp
    · intro tid l1 l2
      simp only [List.length_map, List.length_range] at l1
      rw [List.getElem_map, List.getElem_map, List.getElem_range]
      obtain ⟨k, seen, evs, hw, i1, i2, i3⟩ := hwk tid l1
      refine (fold_last (·.iterations) (·.iterations) absorb_iterations _ _).trans ?_
      rw [(hall tid _ (List.getElem?_eq_getElem l1)).2, hw.count, i3, hw.iters, i2]
      cases k with
      | zero => rfl
      | succ k =>
        rw [List.getLast?_range']
        simp

  · rw [e0]
    have hmode : OneMode cfg.problem.scoring.greedy (g.workers.map (·.st.best)) := by
      intro x hx
      obtain ⟨w, hw, rfl⟩ := List.mem_map.1 hx
      obtain ⟨tid, hlt, he⟩ := List.mem_iff_getElem.1 hw
      obtain ⟨k, seen, evs, hwk', i1, _, _⟩ := hwk tid hlt
      rw [he] at hwk'
      refine worked_mode ?_ hwk'
      rw [i1]; exact Score.inMode_infinite _
    have hbest : IsBest (g.workers.map (·.st.best)) ((g.workers.map (·.st.best)).foldl keep nothing) := by
      simpa using isBest_foldl (g.workers.map (·.st.best)) [] (by simpa using hmode) isBest_nil
    exact hbest

/-! ### C23 -/

/-- **C23**: cancellation is sticky; after it no worker enters a further iteration, and only a worker that was inside
one can complete it. -/
theorem C23_at_most_current_iteration (cfg : Setup σ τ ρ) (g g' : Session σ τ ρ) (hc : g.cancelled = true) (hr : Run cfg g g') :
    g'.cancelled = true ∧ ∀ (tid : Nat) (w w' : Worker σ τ ρ), g.workers[tid]? = some w → g'.workers[tid]? = some w' →
      w'.started = w.started ∧
      w'.st.progress.iterations ≤ w.st.progress.iterations + (if w.phase = .run then 1 else 0) := by
  obtain ⟨h1, _, h2⟩ := since_run hr hc
  exact ⟨h1, fun tid w w' hw hw' => ⟨(h2 tid w w' hw hw').started, (h2 tid w w' hw hw').count⟩⟩

/-- **C23**: a cancelled session is over after at most three moves per worker, and as long as it is not over some
worker can move. -/
theorem C23_cancelled_session_ends (cfg : Setup σ τ ρ) (g g' : Session σ τ ρ) (hc : g.cancelled = true) (n : Nat)
    (hm : Moves cfg n g g') : n ≤ 3 * g.workers.length ∧ (g'.over ∨ ∃ g'', Move cfg g' g'') := by
  obtain ⟨_, h⟩ := moves_left hm hc
  have := left_le g.workers
  refine ⟨by omega, ?_⟩
  by_cases ho : g'.over
  · exact .inl ho
  · exact .inr (can_move ho)

/-- **C23**: with `--any`, a worker whose best score is finite neither goes on nor starts an iteration, and once it
has stopped the session is cancelled for all. -/
theorem C23_any_stops_everyone (cfg : Setup σ τ ρ) (Inv : Nat → τ → Prop) (InvR : Nat → ρ → Prop) (hS : SetupWF cfg Inv InvR)
    (hany : cfg.any = true) (g : Session σ τ ρ) (hr : Run cfg (start cfg) g) (w : Worker σ τ ρ) (hw : w ∈ g.workers)
    (hf : w.st.progress.bestScore.isFinite = true) :
    w.phase ≠ .check ∧ w.phase ≠ .run ∧ (w.phase = .finished → g.cancelled = true) := by
  have hsok := run_ok hS (start_ok hS) hr
  obtain ⟨tid, hlt, he⟩ := List.mem_iff_getElem.1 hw
  have hk := hsok.ok tid w (by rw [List.getElem?_eq_getElem hlt, he])
  have hf : w.st.best.2.isFinite = true := hf
  refine ⟨?_, ?_, fun h => hk.anyDone hany h hf⟩
  · intro h; have := hk.any hany (.inl h); rw [this] at hf; cases hf
  · intro h; have := hk.any hany (.inr h); rw [this] at hf; cases hf

/-- **C23**: an input with one slot is handled by one worker in at most one iteration. -/
theorem C23_single_slot (cfg : Setup σ τ ρ) (h1 : cfg.problem.input.ns = 1) (hinit : ∀ tid, (cfg.init tid).progress.iterations = 0)
    (g : Session σ τ ρ) (hr : Run cfg (start cfg) g) :
    (start cfg).workers.length = 1 ∧ ∀ w ∈ g.workers, w.started ≤ 1 ∧ w.st.progress.iterations ≤ 1 := by
  refine ⟨?_, fun w hw => (single_run h1 hinit hr w hw).most⟩
  simp [start, workerCount, h1]

/-! ### A concrete session -/

namespace ThEx

/-- Let the workers with the given indices move, one after the other (with a clock that is never late). -/
def exec (cfg : Setup σ τ ρ) : List Nat → Session σ τ ρ → Session σ τ ρ
  | [], g => g
  | tid :: l, g =>
    match g.workers[tid]? with
    | none => exec cfg l g
    | some w =>
      match w.phase with
      | .check => exec cfg l { g with workers := g.workers.set tid (checkStep g.cancelled false w) }
      | .run => exec cfg l { g with workers := g.workers.set tid (runStep cfg tid w) }
      | .test k => exec cfg l ⟨g.cancelled || (testStep cfg tid k w).1, g.workers.set tid (testStep cfg tid k w).2⟩
      | _ => exec cfg l g

theorem run_trans {cfg : Setup σ τ ρ} {a b c : Session σ τ ρ} (h1 : Run cfg a b) (h2 : Run cfg b c) : Run cfg a c := by
  induction h2 with
  | refl => exact h1
  | step _ hs ih => exact .step (ih) hs

theorem exec_run (cfg : Setup σ τ ρ) : ∀ (l : List Nat) (g : Session σ τ ρ), Run cfg g (exec cfg l g) := by
  intro l
  induction l with
  | nil => intro g; exact .refl g
  | cons tid l ih =>
    intro g
    unfold exec
    split
    · exact ih g
    · rename_i w hw
      split
      · rename_i hp
        exact run_trans (.step (.refl g) (.move (.check g tid w false hw hp))) (ih _)
      · rename_i hp
        exact run_trans (.step (.refl g) (.move (.run g tid w hw hp))) (ih _)
      · rename_i k hp
        exact run_trans (.step (.refl g) (.move (.test g tid k w hw hp))) (ih _)
      · exact ih g

/-- A source of two schedulings (the second one has no assignment). -/
def next (r : Nat) : R (Option Scheduling × Nat) :=
  if r = 0 then pure (some Ex.sch, 1) else if r = 1 then pure (some [some 0, some 1, some 1, some 1], 2) else pure (none, r)

/-- Two workers. -/
def cfg (any : Bool) : Setup Nat Unit Nat where
  problem := HillEx.prob
  any := any
  threads := 2
  env := fun tid => { HillEx.env with
    worker := tid
    next := next
    lpOf := fun _ => 0
    lateS := fun _ => false }
  init := fun tid => Shotgun.new tid 0 ()

theorem setup_ok (any : Bool) : SetupWF (cfg any) (fun _ _ => True) (fun _ _ => True) where
  worker := fun tid _ =>
    { wf := Ex.inp_wf
      pref := show Ex.inp.maxPref ≤ u32Max by decide
      lawful := Ex.counter_lawful
      shaped := HillEx.shaped
      supplies := by
        have key : ∀ (r : Nat) (s : Scheduling) (r' : Nat), next r = .ok (some s, r') → SchedShape Ex.inp s ∧ Placed Ex.inp s := by
          intro r s r' h
          unfold next at h
          split at h
          · cases h
            exact ⟨AsgEx.sch_shape, by unfold Placed; decide⟩
          · split at h
            · cases h
              have hsh : SchedShape Ex.inp [some 0, some 1, some 1, some 1] := ⟨by decide, by
                intro c t h
                match c with
                | 0 => simp [slotAt] at h; subst h; decide
                | 1 => simp [slotAt] at h; subst h; decide
                | 2 => simp [slotAt] at h; subst h; decide
                | 3 => simp [slotAt] at h; subst h; decide
                | n + 4 => simp [slotAt] at h⟩
              exact ⟨hsh, by unfold Placed; decide⟩
            · cases h
        exact ⟨by intros; trivial, fun r s r' _ h => (key r s r' h).1, fun r s r' _ h => (key r s r' h).2⟩ }
  index := fun _ _ => rfl
  fresh := fun tid _ => ⟨tid, 0, (), rfl, trivial, trivial⟩

/-- Worker 0 gets both schedulings, worker 1 only the second one. -/
def order : List Nat := [0, 1, 0, 1, 1, 0, 1, 0, 1, 0, 1, 0, 0, 0, 0]

def final (any : Bool) : Session Nat Unit Nat := exec (cfg any) order (start (cfg any))

example : (final false).workers.map (fun w => (w.phase, w.started, w.st.progress.iterations, w.st.progress.bestScore.isFinite)) =
    [(.finished, 3, 2, true), (.finished, 2, 1, false)] := by decide +kernel

/-- C21 applies, and the result is the solution of worker 0. -/
example : (∀ w ∈ (final false).workers, w.phase ≠ .panicked) ∧ Run (cfg false) (start (cfg false)) (final false) ∧
    Threaded.wait (final false) = .ok (.complete [some 0, some 1, some 1, some 0] Ex.asg) := by
  refine ⟨?_, exec_run _ _ _, by decide +kernel⟩
  have h : (final false).workers.map (fun w => w.phase) = [.finished, .finished] := by decide +kernel
  intro w hw e
  have : w.phase ∈ (final false).workers.map (fun w => w.phase) := List.mem_map.2 ⟨w, hw, rfl⟩
  rw [h, e] at this
  simp at this

/-- C23: with `--any` worker 0 stops after its first iteration and cancels the session. -/
example : (final true).cancelled = true ∧ (final true).workers.map (fun w => (w.phase, w.started, w.st.progress.iterations)) =
    [(.finished, 1, 1), (.finished, 1, 1)] := by decide +kernel

/-- C22: the events of both workers, polled in two batches, lead to the final report. -/
example : let evs := (final false).workers.flatMap (fun w => w.st.hill.events)
    (poll (poll (freshProgress 2) (evs.drop 3)).2 (evs.take 3)).1.bestSolution = .complete [some 0, some 1, some 1, some 0] Ex.asg ∧
    3 < evs.length := by decide +kernel

end ThEx

end Wassign
