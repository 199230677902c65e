import Verif.Proofs.Climb
import Verif.Props.Single
import Verif.Props.Deadline
/-
C69: hill climbing stops only at a local optimum.
-/
namespace Wassign
open Spec Build Threaded Main Reader Hill

/-! ### Hill climbing -/

section
variable {σ τ : Type} (pr : HProblem) (env : HEnv σ τ) (hw : WF pr.input) (hm : pr.input.maxPref ≤ u32Max)
  (hg : env.rng.Lawful) (Inv : τ → Prop) (hA : Shaped pr.input env.asolve Inv)
include hw hm hg hA

/-- **C69**: if the deadline does not pass meanwhile, what hill climbing returns is a local optimum: a set of neighbours was picked
for its scheduling, the assignment solver was asked about every one of them, and none of the answers has a better score. -/
theorem C69_local_optimum (deadline : Bool) (hl : deadline = true → ∀ t, env.late t = false) (st st' : HState σ τ) (hi : Inv st.asg)
    (s : Scheduling) (hs : SchedShape pr.input s) (sol : Solution) (h : Hill.solve pr env deadline st s = .ok (sol, st')) :
    sol = .invalid ∨ ∃ s' a sc, sol = .complete s' a ∧ SchedShape pr.input s' ∧ pr.scoring.evaluate pr.input sol = .ok sc ∧
      LocallyBest pr env Inv s' sc := by
  rcases solve_best (F := fun _ => True) hw hm hg hA (fun _ _ _ => trivial) hl hi hs trivial h with e | ⟨s', a, sc, e1, e2, e3⟩
  · exact .inl e
  · obtain ⟨s2, a2, e4, e5, _⟩ := e2.whole
    simp only at e4
    rw [e1] at e4
    cases e4
    exact .inr ⟨s', a, sc, e1, e5, e2.eval, e3⟩

end

/-- **C69**: which neighbours are picked: if the limit is at least twice the number of single moves (once is enough if no swaps are
tried), every scheduling that satisfies the scheduling rules and differs from the given one in one choice is among them. -/
theorem C69_every_move_considered {σ : Type} (g : RngOps σ) (hg : g.Lawful) (draws maxN : Nat) (i : InputData) (hw : WF i)
    (hz : Sizes i) (s : Scheduling) (hs : SchedShape i s)
    (hmax : (if 1 < i.nc ∧ 1 < i.ns then 2 * (i.nc * i.ns) else i.nc * i.ns) ≤ maxN) (rs rs' : σ) (l : List Scheduling)
    (h : pickNeighbors g draws maxN i s rs = .ok (l, rs')) (n : Scheduling) (hm : SingleMove i s n) (hv : SchedValid i n) : n ∈ l := by
  have hlen := hm.1.len
  have hn : i.nc ≤ u32Max := by have := hz.choices; unfold i32Max at this; unfold u32Max; omega
  have hp : i.np ≤ u32Max := by have := hz.choosers; unfold i32Max at this; unfold u32Max; omega
  obtain ⟨b, hb⟩ := schedFeasible_total hlen hm.1.range hz hw.sched
  have hb1 := (schedFeasible_spec hlen hn hp hw.sched hb).2 hv
  subst hb1
  refine pickNeighbors_all hg hs ?_ h hm hb
  unfold addSwap
  by_cases hc : 1 < i.nc ∧ 1 < i.ns
  · rw [if_pos hc] at hmax
    split <;> omega
  · rw [if_neg hc] at hmax
    rw [if_neg (by simpa using hc)]
    omega

/-! ### The program -/

section
variable {F σ : Type}

/-- What one worker's assignment solver has been through, clocks aside. -/
def Untimed (pr : AProblem) (env : AEnv) (sv : ASolver) : Prop := Spec.Reach pr (unclocked env) true (strip sv)

theorem solve_untimed {pr : AProblem} {env : AEnv} (hl : ∀ t, env.late t = false) {sv sv' : ASolver} {s : Scheduling}
    {r : Option Assignment} (h : Asg.solveUntil pr env true sv s = .ok (r, sv')) :
    Asg.solveUntil pr (unclocked env) false (strip sv) s = .ok (r, strip sv') := by
  have := solveUntil_strip (pr := pr) (env := env) hl sv s
  rw [h] at this
  exact this

theorem untimed_shaped {pr : AProblem} {env : AEnv} (hp : ProblemOk pr) (hlev : pr.input.prefLevels.Pairwise (· < ·))
    (hb : Backend.Sound (unclocked env).backend) (hl : ∀ t, env.late t = false) :
    Shaped pr.input (Asg.solveUntil pr env true) (Untimed pr env) where
  keeps := by
    intro t s r t' ht hs h
    exact Reach.step (deadline := false) ht hs (solve_untimed hl h)
  shape := by
    intro t s a t' ht hs h
    have e := C06_solved_assignments_valid pr (unclocked env) hp hlev hb true _ ht s hs false a _ (solve_untimed hl h)
    exact ⟨hs.len, e.1.rows, e.1.cols⟩

theorem keep_mem : ∀ (l : List (Solution × Score)) (b : Solution × Score), l.foldl keep b = b ∨
    (l.foldl keep b ∈ l ∧ (l.foldl keep b).2.isFinite = true) := by
  intro l
  induction l with
  | nil => intro b; exact .inl rfl
  | cons x l ih =>
    intro b
    simp only [List.foldl_cons]
    rcases ih (keep b x) with e | ⟨e1, e2⟩
    · rw [e]
      unfold keep
      split
      · rename_i hlt
        exact .inr ⟨by simp, Score.lt_finite hlt⟩
      · exact .inl rfl
    · exact .inr ⟨List.mem_cons_of_mem _ e1, e2⟩

variable (raw : Raw) (tr : List Reader.Event) (hdes : Describes tr raw) (d : InputData) (h : build raw = .ok d)
  (hr : ManageableRaw raw) (hd : Manageable d) (o : Outside F σ) (ho : Trusted o d.nc) (hx : ∀ tid, Exact (o.backend tid))
  (opts : Opts F) (hcs : 0 ≤ opts.csTimeout) (p : Prepared) (hp : prepare o d opts = .ok p)
  (hl1 : ∀ tid t, o.lateHill tid t = false) (hl2 : ∀ tid t, o.lateAsg tid t = false) (hfin : Scorable p.scoring d)
  (hroom : 2 * (d.choices.length * d.slots.length) ≤ opts.maxNeighbors)
  (g : Session σ ASolver (σ × Nat)) (hg : Run (setup o p opts) (start (setup o p opts)) g)
include hdes h hr hd ho hx hcs hp hl1 hl2 hfin hroom hg

/-- **C69** for the program: if the limit on neighbours leaves room for all of them and no climb is cut off by the deadline, then
no single move improves the solution that is printed. For every scheduling `n` that differs from the printed one in one choice
and has a valid assignment (and separates no linked choices), there is a best assignment `b` of `n` — one of least total cost among the valid assignments of `n` that
respect its worst preference, among all of them with `--greedy`; and, without `--greedy`, one within every level within which some valid assignment of `n` is —
and the score of `(n, b)` is not better than that of the printed solution. -/
theorem C69_no_better_move :
    report p g = .ok .noSolution ∨
    ∃ s a sc sched asg, SchedShape d s ∧ Shape d s a ∧ Valid d s a ∧ Placed d s ∧ report p g = .ok (.tables sched asg) ∧
      (∃ table, asg = csv table ∧ AssignmentTable d s a table) ∧ p.scoring.evaluate d (.complete s a) = .ok sc ∧
      ∀ n a', SingleMove d s n → Placed d n → LinksScheduled d n → Valid d n a' →
        ∃ b sc', Shape d n b ∧ Valid d n b ∧ p.scoring.evaluate d (.complete n b) = .ok sc' ∧ Score.lt sc' sc = false ∧
          (opts.greedy = true → totalCost d (o.cost opts.prefExp) b ≤ totalCost d (o.cost opts.prefExp) a') ∧
          (opts.greedy = false → ∀ l ∈ d.prefLevels, p.analysis.preferenceBound ≤ l → WithinLimit d a' l → WithinLimit d b l) ∧
          (∀ w, IsWorst d b w → WithinLimit d a' w → totalCost d (o.cost opts.prefExp) b ≤ totalCost d (o.cost opts.prefExp) a') := by
  have hmax := fun q hq => ((described_fit hdes).1 q hq).2.1
  obtain ⟨m, written, hb⟩ := build_spec hmax h
  obtain ⟨hz, hnc', hns'⟩ := sizes_of_manageable hb hr hd
  have hcalm := C49_no_worker_panics raw d hmax h hr hd o ho opts hcs p hp g hg
  have hrep := report_ok hdes h ho.lawful hp hg hcalm
  have hpp := hp
  unfold prepare at hpp
  simp only [R.bind_eq_ok] at hpp
  obtain ⟨an, han, S, hS, hpp⟩ := hpp
  obtain ⟨hok, hlev', hlast⟩ := problemOk_of_built raw d hmax h hd.nodes (asgProblem o p opts) (by cases hpp; rfl) (by cases hpp; exact hS)
  have hin : p.input = d := by cases hpp; rfl
  subst hin
  have hnc : p.input.nc ≤ u32Max := by have := hz.choices; unfold i32Max at this; unfold u32Max; omega
  have hnp : p.input.np ≤ u32Max := by have := hz.choosers; unfold i32Max at this; unfold u32Max; omega
  have hmp : p.input.maxPref ≤ u32Max := Nat.le_of_lt hz.maxPref
  rcases hrep with ⟨e, _⟩ | ⟨s, a, x, sched, hwait, hre, hs, hv, hpl, ht, _⟩
  · exact .inl e
  right
  have hworkers := run_kept (cfg := setup o p opts)
    (P := fun tid st => Climbed (setup o p opts).problem ((setup o p opts).env tid) (Untimed (asgProblem o p opts) (asgEnv o tid))
      (SchedValid p.input) st)
    (fun tid => ⟨.new, .inl (by show Score.infinite.isFinite = false; decide)⟩)
    (fun tid k st st' hc he => by
      have hA := untimed_shaped (env := asgEnv o tid) hok hlev' (unclocked_backend (env := asgEnv o tid) (hx tid)).1 (hl2 tid)
      refine iterate_climbed (pr := (setup o p opts).problem) (env := (setup o p opts).env tid) hb.wf hmp ho.lawful hA ?_ ?_ (hl1 tid) 1 k st st' hc he
      · intro n hn hf
        exact (schedFeasible_spec hn hnc hnp hb.wf.sched hf).1 rfl
      · intro r s r' e
        obtain ⟨e1, e2⟩ := Search.nextScheduling_feasible (source_next e)
        exact ⟨⟨e1, schedFeasible_range e1 e2⟩, (schedFeasible_spec e1 hnc hnp hb.wf.sched e2).1 rfl⟩)
    (fun tid st hc => hc) hg
  have hcol : wait g = .ok ((g.workers.map (·.st.best)).foldl keep nothing).1 := by
    unfold Threaded.wait
    rw [collect_ok hcalm]
  rw [hcol] at hwait
  injection hwait with hwait
  obtain ⟨hmem, hf⟩ : (g.workers.map (·.st.best)).foldl keep nothing ∈ g.workers.map (·.st.best) ∧
      ((g.workers.map (·.st.best)).foldl keep nothing).2.isFinite = true := by
    rcases keep_mem (g.workers.map (·.st.best)) nothing with e | e
    · rw [e] at hwait; cases hwait
    · exact e
  obtain ⟨w, hw, hwb⟩ := List.mem_map.1 hmem
  rw [← hwb] at hwait hf
  obtain ⟨tid, htid⟩ := List.mem_iff_getElem?.1 hw
  obtain ⟨_, hc⟩ := hworkers tid w htid
  rcases hc with hc | ⟨s1, a1, hc1, hgood, rs, ns, rs', hpick, hns⟩
  · have : w.st.progress.bestScore.isFinite = true := hf
    rw [this] at hc; cases hc
  have hwait : w.st.progress.bestSolution = .complete s a := hwait
  rw [hwait] at hc1
  cases hc1
  have hsha : Shape p.input s a := by
    obtain ⟨s2, a2, e, _, e2, _⟩ := hgood.whole
    simp only at e
    rw [hwait] at e
    cases e
    exact e2
  refine ⟨s, a, w.st.progress.bestScore, sched, x, hs, hsha, hv, hpl, hre, ht, by rw [← hwait]; exact hgood.eval, ?_⟩
  intro n a' hmove hpln hlinks hva
  have hsv : SchedValid p.input n := schedValid_of_valid hmove.1.len hva hpln
  have hin : n ∈ ns := C69_every_move_considered o.rng ho.lawful o.draws opts.maxNeighbors p.input hb.wf hz s hs
    (by
      have : 2 * (p.input.nc * p.input.ns) ≤ opts.maxNeighbors := hroom
      split <;> omega) rs rs' ns hpick n hmove hsv
  obtain ⟨sc', ⟨t, r, t', ht', hask, hev⟩, hlt⟩ := hns n hin
  obtain ⟨q1, q2, q3⟩ := unclocked_backend (env := asgEnv o tid) (hx tid)
  have hav : AsgValid p.input n a' := ⟨hva.onePerSlot, hva.onlyScheduled, hva.bounds, hva.asg⟩
  have hask' := solve_untimed (pr := asgProblem o p opts) (env := asgEnv o tid) (hl2 tid) hask
  cases r with
  | none =>
    exact absurd hav (C08_none_means_none_partial (asgProblem o p opts) (unclocked (asgEnv o tid)) hok hlev' q1 true _ ht' n hmove.1 hlinks
      q3 hlast _ hask' a')
  | some b =>
    obtain ⟨e1, e2⟩ := C06_solved_assignments_valid (asgProblem o p opts) (unclocked (asgEnv o tid)) hok hlev' q1 true _ ht' n hmove.1 false b _ hask'
    obtain ⟨c1, c2⟩ := C07_cheapest_partial (asgProblem o p opts) (unclocked (asgEnv o tid)) hok hlev' q1 true _ ht' n hmove.1 hlinks q2 false b _ hask'
    refine ⟨b, sc', ⟨hmove.1.len, e1.rows, e1.cols⟩, ⟨hsv.cons, e2.asg, e2.onePerSlot, e2.onlyScheduled, e2.bounds⟩, hev, hlt, ?_, ?_, ?_⟩
    · intro hgr; exact c1 hgr a' hav
    · intro hgr l hl hbl hwl
      obtain ⟨l0, _, hw0, hleast⟩ := C10_least_level_partial (asgProblem o p opts) (unclocked (asgEnv o tid)) hok hlev' q1 hgr q3 _ ht' n hmove.1 hlinks
        b _ hask'
      have := hleast l hl hbl a' hav hwl
      intro pp c y y1 y2
      exact Nat.le_trans (hw0 pp c y y1 y2) this
    · intro w' hw' hwl; exact c2 a' w' hav hw' hwl

/-- **C69** without `--greedy`, for the worst-off chooser: if a single move of the printed scheduling has a valid assignment within some preference level
(and separates no linked choices), then the printed solution is within that level too. -/
theorem C69_no_move_helps_the_worst_off (hgr : opts.greedy = false) (hpref : d.maxPref < 2 ^ 24) :
    report p g = .ok .noSolution ∨
    ∃ s a sched asg, SchedShape d s ∧ Valid d s a ∧ Placed d s ∧ report p g = .ok (.tables sched asg) ∧
      (∃ table, asg = csv table ∧ AssignmentTable d s a table) ∧
      ∀ n a' l, SingleMove d s n → Placed d n → LinksScheduled d n → Valid d n a' → l ∈ d.prefLevels → p.analysis.preferenceBound ≤ l →
        WithinLimit d a' l → WithinLimit d a l := by
  have hmax := fun q hq => ((described_fit hdes).1 q hq).2.1
  obtain ⟨m, written, hb⟩ := build_spec hmax h
  obtain ⟨hz, hnc', hns'⟩ := sizes_of_manageable hb hr hd
  have hscore : ∀ s a sc, SchedShape d s → Shape d s a → Valid d s a → p.scoring.evaluate d (.complete s a) = .ok sc →
      ∃ w mi, IsWorst d a w ∧ w ≤ d.maxPref ∧ F32.isFinite mi = true ∧ sc = ⟨F32.ofU32 w, mi⟩ := by
    intro s a sc hs hsh hv he
    obtain ⟨w, cnt, e1, e2, _, e3⟩ := evaluate_valid p.scoring hsh hz hb.wf hs.range hv
    obtain ⟨sc2, e4, e5⟩ := hfin s a hs hsh hv
    rw [he] at e3 e4
    cases e4
    injection e3 with e3
    cases hmf : (p.scoring.minorOf cnt).isFinite with
    | false => rw [hmf] at e3; simp only [Bool.false_eq_true, if_false] at e3; subst e3; exact absurd e5 (by decide)
    | true =>
      rw [hmf, prepare_scoring hp] at e3
      simp only [if_true, hgr, Bool.false_eq_true, if_false] at e3
      rw [prepare_scoring hp] at hmf
      exact ⟨w, _, e1, e2, hmf, e3⟩
  rcases C69_no_better_move raw tr hdes d h hr hd o ho hx opts hcs p hp hl1 hl2 hfin hroom g hg with
    e | ⟨s, a, sc, sched, asg, hs, hsha, hv, hpl, hre, ht, hsc, hall⟩
  · exact .inl e
  · refine .inr ⟨s, a, sched, asg, hs, hv, hpl, hre, ht, ?_⟩
    intro n a' l hmove hpln hlinks hva hl hbl hwl
    obtain ⟨b, sc', hshb, hvb, hsc', hlt, _, hlev, _⟩ := hall n a' hmove hpln hlinks hva
    have hbl' := hlev hgr l hl hbl hwl
    obtain ⟨wb, mb, hwb, _, hmb, e2⟩ := hscore n b sc' hmove.1 hshb hvb hsc'
    obtain ⟨wa, ma, hwa, hwam, hma, e1⟩ := hscore s a sc hs hsha hv hsc
    have hle : wa ≤ wb := by
      by_contra hcon
      have := (C39_worst_preference_first wb wa mb ma (by omega) hmb hma (by omega)).1
      rw [e1, e2] at hlt
      unfold Score.lt at hlt
      rw [this] at hlt
      cases hlt
    intro pp c y y1 y2
    have h1 : y ≤ wa := hwa.upper pp c y y1 y2
    have h2 : wb ≤ l := by
      rcases hwb.attained with e | ⟨p2, c2, f1, f2⟩
      · omega
      · exact hbl' p2 c2 wb f1 f2
    omega

omit hroom in
/-- **C70**: if every scheduling that satisfies the scheduling rules has a valid assignment, then one completed iteration of one worker is
enough: from then on the program has a solution to print. -/
theorem C70_one_iteration_suffices
    (hall : ∀ s, SchedShape d s → SchedValid d s → LinksScheduled d s ∧ ∃ a, Valid d s a)
    (hone : ∃ w ∈ g.workers, 1 ≤ w.st.progress.iterations) :
    ∃ s a sched asg, SchedShape d s ∧ Valid d s a ∧ Placed d s ∧ report p g = .ok (.tables sched asg) ∧
      ∃ table, asg = csv table ∧ AssignmentTable d s a table := by
  have hmax := fun q hq => ((described_fit hdes).1 q hq).2.1
  obtain ⟨m, written, hb⟩ := build_spec hmax h
  obtain ⟨hz, hnc', hns'⟩ := sizes_of_manageable hb hr hd
  have hcalm := C49_no_worker_panics raw d hmax h hr hd o ho opts hcs p hp g hg
  have hrep := report_ok hdes h ho.lawful hp hg hcalm
  have hpp := hp
  unfold prepare at hpp
  simp only [R.bind_eq_ok] at hpp
  obtain ⟨an, han, S, hS, hpp⟩ := hpp
  obtain ⟨hok, hlev', hlast⟩ := problemOk_of_built raw d hmax h hd.nodes (asgProblem o p opts) (by cases hpp; rfl) (by cases hpp; exact hS)
  have hin : p.input = d := by cases hpp; rfl
  subst hin
  have hnc : p.input.nc ≤ u32Max := by have := hz.choices; unfold i32Max at this; unfold u32Max; omega
  have hnp : p.input.np ≤ u32Max := by have := hz.choosers; unfold i32Max at this; unfold u32Max; omega
  have hmp : p.input.maxPref ≤ u32Max := Nat.le_of_lt hz.maxPref
  have hworkers := run_kept (cfg := setup o p opts)
    (P := fun tid st => Untimed (asgProblem o p opts) (asgEnv o tid) st.hill.asg ∧
      (1 ≤ st.progress.iterations → st.progress.bestScore.isFinite = true))
    (fun tid => ⟨.new, fun h0 => absurd h0 (by show ¬ 1 ≤ 0; omega)⟩)
    (fun tid k st st' hc he => by
      obtain ⟨q1, q2, q3⟩ := unclocked_backend (env := asgEnv o tid) (hx tid)
      have hA := untimed_shaped (env := asgEnv o tid) hok hlev' q1 (hl2 tid)
      have h1 : (Shotgun.clock ((setup o p opts).env tid) true st).2.hill = st.hill ∧
          (Shotgun.clock ((setup o p opts).env tid) true st).2.progress = st.progress := by
        unfold Shotgun.clock; split <;> exact ⟨rfl, rfl⟩
      unfold Shotgun.iterate at he
      simp only at he
      generalize (Shotgun.clock ((setup o p opts).env tid) true st) = c at h1 he
      split at he
      · cases he; rw [h1.1, h1.2]; exact hc
      · rw [R.bind_eq_ok] at he
        obtain ⟨⟨x, r⟩, hx', he⟩ := he
        cases x with
        | none => cases he; simp only [h1.1, h1.2]; exact hc
        | some s =>
          simp only [Shotgun.iterate, R.bind_eq_ok] at he
          obtain ⟨⟨sol, h'⟩, h2, sc, hsc, r, hr2, he⟩ := he
          cases hr2
          cases he
          obtain ⟨e1, e2⟩ := Search.nextScheduling_feasible (source_next hx')
          have hs : SchedShape p.input s := ⟨e1, schedFeasible_range e1 e2⟩
          have hsv : SchedValid p.input s := (schedFeasible_spec e1 hnc hnp hb.wf.sched e2).1 rfl
          obtain ⟨hlinks, a', hva⟩ := hall s hs hsv
          have hav : AsgValid p.input s a' := ⟨hva.onePerSlot, hva.onlyScheduled, hva.bounds, hva.asg⟩
          rw [h1.1] at h2
          obtain ⟨hinv, rr, t', sol0, sc0, lps, evs, _, k1, k2, k3, _, k5⟩ := Hill.solve_spec (pr := (setup o p opts).problem)
            (env := ((setup o p opts).env tid).toHEnv) (F := fun _ => True) hb.wf hmp ho.lawful hA (fun _ _ _ => trivial) hc.1 hs trivial h2
          have k1' := solve_untimed (pr := asgProblem o p opts) (env := asgEnv o tid) (hl2 tid) k1
          have hf0 : sc0.isFinite = true := by
            cases rr with
            | none =>
              exact absurd hav (C08_none_means_none_partial (asgProblem o p opts) (unclocked (asgEnv o tid)) hok hlev' q1 true _ hc.1 s hs hlinks
                q3 hlast _ k1' a')
            | some b =>
              obtain ⟨f1, f2⟩ := C06_solved_assignments_valid (asgProblem o p opts) (unclocked (asgEnv o tid)) hok hlev' q1 true _ hc.1 s hs
                false b _ k1'
              obtain ⟨sc2, f3, f4⟩ := hfin s b hs ⟨hs.len, f1.rows, f1.cols⟩ ⟨hsv.cons, f2.asg, f2.onePerSlot, f2.onlyScheduled, f2.bounds⟩
              simp only at k2; subst k2
              have k3 : p.scoring.evaluate p.input (.complete s b) = .ok sc0 := k3
              rw [f3] at k3; cases k3; exact f4
          have hf : sc.isFinite = true := by
            rcases k5 with ⟨k5, _⟩ | ⟨_, _, sc3, _, k6, _⟩
            · rw [hf0] at k5; cases k5
            · have := k6.eval
              simp only at this
              rw [hsc] at this; cases this; exact k6.fin
          refine ⟨?_, fun _ => ?_⟩
          · show Untimed _ _ (Shotgun.record _ sol sc _).hill.asg
            unfold Shotgun.record; split <;> exact hinv
          · show (Shotgun.record _ sol sc _).progress.bestScore.isFinite = true
            unfold Shotgun.record
            split
            · exact hf
            · rename_i hlt
              cases hbf : c.2.progress.bestScore.isFinite with
              | true => rfl
              | false =>
                exfalso
                apply hlt
                show Score.lt sc c.2.progress.bestScore = true
                unfold Score.lt
                rw [(C39_invalid_last sc _ hf hbf).1]; rfl)
    (fun tid st hc => hc) hg
  rcases hrep with ⟨_, e⟩ | ⟨s, a, x, sched, _, hre, hs, hv, hpl, ht, _⟩
  · obtain ⟨w, hw, hi⟩ := hone
    obtain ⟨tid, htid⟩ := List.mem_iff_getElem?.1 hw
    have := (hworkers tid w htid).2 hi
    rw [e w hw] at this; cases this
  · exact ⟨s, a, sched, x, hs, hv, hpl, hre, ht⟩

end

end Wassign

/-! ## The hypotheses are met -/
namespace Wassign.ClimbEx
open Threaded Main Reader ReadEx Spec Build

/-- Two slots, four choices with room for two (dancing is optional), and two choosers. -/
def script : Script :=
  given (.slot "Monday".toList) fun s => then' (.add .slot s) <|
  given (.slot "Tuesday".toList) fun t => then' (.add .slot t) <|
  given (.choice "Swimming".toList [tagInt .max 2]) fun a => then' (.add .choice a) <|
  given (.choice "Chess".toList [tagInt .max 2]) fun b => then' (.add .choice b) <|
  given (.choice "Music".toList [tagInt .max 2]) fun c => then' (.add .choice c) <|
  given (.choice "Dancing".toList [tagInt .max 2, optionalIf true]) fun e => then' (.add .choice e) <|
  given (.chooser "Ann".toList [.int 3, .int 1, .int 2, .int 0]) fun p => then' (.add .chooser p) <|
  given (.chooser "Bob".toList [.int 0, .int 3, .int 1, .int 2]) fun q => then' (.add .chooser q) .done

def outside : Outside Unit Nat := { MainEx.outside with
  lateIter := fun _ _ => false
  draws := 4 }
noncomputable def ideal : Outside Unit Nat := { outside with backend := fun _ => idealBackend }

def read := readInput outside.opt (new opts) script
def data : InputData := match read.1 with
  | .ok d => d
  | .error _ => default
/-- The options after reading, with room for all neighbours. -/
def eff : Opts Unit := { effectiveOptions read.2 with maxNeighbors := 16 }
def prepared : Prepared := match prepare outside data eff with
  | .ok p => p
  | .error _ => ⟨default, ⟨[], [], 0⟩, ⟨.empty, [], [], [], [], []⟩, ⟨true, fun _ => 0⟩⟩

theorem read_ok : read.1 = .ok data := by
  have h : read.1.isOk = true := by decide +kernel
  unfold data
  cases e : read.1 with
  | ok d => rfl
  | error f => rw [e] at h; cases h

theorem prepare_ok : prepare ideal data eff = .ok prepared := by
  have h : (prepare outside data eff).isOk = true := by decide +kernel
  show prepare outside data eff = .ok prepared
  unfold prepared
  cases e : prepare outside data eff with
  | ok d => rfl
  | error f => rw [e] at h; cases h

def raw : Raw := match sync (outcome outside.opt opts script).2.1.st with
  | .ok s => ⟨s.sets, s.choices, s.choosers, s.exprs⟩
  | .error _ => ⟨[], [], [], []⟩

theorem describes_raw : Describes (outcome outside.opt opts script).1 raw := by
  have h : (sync (outcome outside.opt opts script).2.1.st).isOk = true := by decide +kernel
  unfold raw
  cases e : sync (outcome outside.opt opts script).2.1.st with
  | ok s => exact describes (outcome_made _ _) e
  | error f => rw [e] at h; cases h

theorem build_raw : build raw = .ok data := by
  obtain ⟨r, h1, h2⟩ := C55_input_as_described _ _ _ read_ok
  rw [C55_at_most_one _ _ _ h1 describes_raw] at h2
  exact h2

theorem manageable : ManageableRaw raw ∧ Manageable data := by
  refine ⟨⟨by decide +kernel, ?_⟩, ⟨by decide +kernel, by decide +kernel, by decide +kernel, by decide +kernel, by decide +kernel, by decide +kernel⟩⟩
  intro e he
  have : raw.exprs = [] := by decide +kernel
  rw [this] at he; cases he

theorem trusted : Trusted ideal data.nc := by
  have : data.nc = 4 := by decide +kernel
  rw [this]
  exact ⟨Ex.counter_lawful, Ex.counter_varied, fun _ => ideal_sound⟩

theorem scorable : Scorable prepared.scoring data :=
  C60_every_solution_scored_partial raw _ describes_raw data build_raw manageable.1 manageable.2 ideal eff prepared prepare_ok
    (FloatEx.identity_moderate _ _ (by decide +kernel))

/-- Nothing is linked. -/
theorem unlinked (s : Scheduling) : LinksScheduled data s := by
  have hno : data.asgCons = [] := by decide +kernel
  intro a b ha hb hc
  rw [hno] at hc ⊢
  have : ∀ x y, Connected (SameLink []) x y → x = y := by
    intro x y hxy
    induction hxy with
    | refl => rfl
    | link h => obtain ⟨c, hc, _⟩ := h; cases hc
    | symm _ ih => exact ih.symm
    | trans _ _ ih1 ih2 => exact ih1.trans ih2
  rw [this a b hc]
  exact .refl _

/-- In a slot with one choice everybody attends it, in a slot with two each chooser another one. -/
def fill (s : Scheduling) : Assignment :=
  [0, 1].map (fun p => [0, 1].map (fun t => match (List.range 4).filter (fun c => slotAt s c = some t) with
    | [c] => c
    | l => (l[p]?).getD 0))

/-- Every scheduling that satisfies the rules has a valid assignment. -/
theorem assignable (s : Scheduling) (hs : SchedShape data s) (hv : SchedValid data s) : LinksScheduled data s ∧ ∃ a, Valid data s a := by
  refine ⟨unlinked s, fill s, ?_⟩
  have hz := (sizes_of_manageable (build_spec (by decide +kernel) build_raw).choose_spec.choose_spec manageable.1 manageable.2).1
  have hw : WF data := (build_spec (by decide +kernel) build_raw).choose_spec.choose_spec.wf
  have hnc : data.nc ≤ u32Max := by decide +kernel
  have hnp : data.np ≤ u32Max := by decide +kernel
  obtain ⟨b, hb⟩ := schedFeasible_total hs.len hs.range hz hw.sched
  have hb1 := (schedFeasible_spec hs.len hnc hnp hw.sched hb).2 hv
  subst hb1
  have hall : ∀ a ∈ [none, some 0, some 1], ∀ b ∈ [none, some 0, some 1], ∀ c ∈ [none, some 0, some 1], ∀ e ∈ [none, some 0, some 1],
      schedFeasible data [a, b, c, e] = .ok true →
      Scoring.isFeasible data (.complete [a, b, c, e] (fill [a, b, c, e])) = .ok true ∧
      (fill [a, b, c, e]).length = data.np ∧ ∀ r ∈ fill [a, b, c, e], r.length = data.ns := by decide +kernel
  have hlen : s.length = 4 := by rw [hs.len]; decide +kernel
  have hrange : ∀ x ∈ s, x ∈ [none, some 0, some 1] := by
    intro x hx
    obtain ⟨c, hc⟩ := List.mem_iff_getElem?.1 hx
    cases x with
    | none => simp
    | some t =>
      have : t < data.ns := hs.range c t (by unfold slotAt; rw [hc]; rfl)
      have hns : data.ns = 2 := by decide +kernel
      rw [hns] at this
      match t with
      | 0 => simp
      | 1 => simp
      | t + 2 => omega
  match s, hlen with
  | [a, b, c, e], _ =>
    obtain ⟨h1, h2, h3⟩ := hall a (hrange a (by simp)) b (hrange b (by simp)) c (hrange c (by simp)) e (hrange e (by simp)) hb
    exact (C01_feasibility_exact data hw hnc _ _ ⟨hs.len, h2, h3⟩ true h1).1 rfl

/-- A session in which one worker has completed an iteration. -/
theorem session : ∃ g, Run (setup ideal prepared eff) (start (setup ideal prepared eff)) g ∧
    ∃ w ∈ g.workers, 1 ≤ w.st.progress.iterations := by
  have hmax : ∀ q ∈ raw.choices, q.max ≤ 4294967295 := by decide +kernel
  have hW := worker_total hmax build_raw manageable.1 manageable.2 trusted (by decide +kernel) prepare_ok 0
  obtain ⟨k, st, hit, _⟩ := iterate_total hW true 1 ((setup ideal prepared eff).init 0) ⟨true, .new⟩ trivial
  have hn : ∃ s r, ((setup ideal prepared eff).env 0).next ((setup ideal prepared eff).init 0).sched = .ok (some s, r) := by
    show ∃ s r, ((setup outside prepared eff).env 0).next ((setup outside prepared eff).init 0).sched = .ok (some s, r)
    have hx : ((((setup outside prepared eff).env 0).next ((setup outside prepared eff).init 0).sched).toOption.bind (·.1)).isSome = true := by
      decide +kernel
    cases e : ((setup outside prepared eff).env 0).next ((setup outside prepared eff).init 0).sched with
    | error f => rw [e] at hx; cases hx
    | ok y =>
      obtain ⟨x, r⟩ := y
      cases x with
      | none => rw [e] at hx; cases hx
      | some s => exact ⟨s, r, rfl⟩
  have h1 : 1 ≤ st.progress.iterations := by
    obtain ⟨s, r, hn⟩ := hn
    have hc : Shotgun.clock ((setup ideal prepared eff).env 0) true ((setup ideal prepared eff).init 0) =
        (false, { (setup ideal prepared eff).init 0 with ticks := 1 }) := rfl
    unfold Shotgun.iterate at hit
    simp only [hc, Bool.false_eq_true, if_false] at hit
    rw [show ((setup ideal prepared eff).env 0).next ({ (setup ideal prepared eff).init 0 with ticks := 1 } : SState _ _ _).sched =
      .ok (some s, r) from hn, R.bind_ok] at hit
    simp only [Shotgun.iterate, R.bind_eq_ok] at hit
    obtain ⟨_, _, _, _, _, hr, hit⟩ := hit
    cases hr
    cases hit
    show 1 ≤ (Shotgun.record _ _ _ _).progress.iterations + 1
    omega
  have hs : (start (setup ideal prepared eff)).workers[0]? = some ⟨.check, (setup ideal prepared eff).init 0, 0⟩ := by
    show (start (setup ideal prepared eff)).workers[0]? = _
    unfold start
    rfl
  have m1 := Move.check (cfg := setup ideal prepared eff) _ 0 _ false hs rfl
  have m2 := Move.run (cfg := setup ideal prepared eff) { start (setup ideal prepared eff) with
      workers := (start (setup ideal prepared eff)).workers.set 0 (checkStep (start (setup ideal prepared eff)).cancelled false
        ⟨.check, (setup ideal prepared eff).init 0, 0⟩) } 0 (checkStep false false ⟨.check, (setup ideal prepared eff).init 0, 0⟩)
    (by
      have hlt := (List.getElem?_eq_some_iff.1 hs).1
      exact List.getElem?_set_self hlt) rfl
  have hrun : runStep (setup ideal prepared eff) 0 (checkStep false false ⟨.check, (setup ideal prepared eff).init 0, 0⟩) =
      ⟨.test k, st, 1⟩ := by
    unfold runStep
    rw [show Shotgun.iterate (setup ideal prepared eff).problem ((setup ideal prepared eff).env 0) true 1
      (checkStep false false ⟨.check, (setup ideal prepared eff).init 0, 0⟩ : Worker _ _ _).st = .ok (k, st) from hit]
    rfl
  rw [hrun] at m2
  refine ⟨_, ((Run.refl _).step (.move m1)).step (.move m2), ⟨.test k, st, 1⟩, ?_, h1⟩
  have hlt := (List.getElem?_eq_some_iff.1 hs).1
  simp only [List.set_set]
  exact List.mem_of_getElem? (List.getElem?_set_self hlt)

/-- So the program has something to print, and no single move helps whoever is worst off. -/
example : ∃ g, Run (setup ideal prepared eff) (start (setup ideal prepared eff)) g ∧
    ∃ s a sched asg, SchedShape data s ∧ Valid data s a ∧ Placed data s ∧ report prepared g = .ok (.tables sched asg) ∧
      ∀ n a' l, SingleMove data s n → Placed data n → Valid data n a' → l ∈ data.prefLevels →
        prepared.analysis.preferenceBound ≤ l → WithinLimit data a' l → WithinLimit data a l := by
  obtain ⟨g, hg, hone⟩ := session
  refine ⟨g, hg, ?_⟩
  obtain ⟨_, _, sd, x, _, _, _, hre, _⟩ := C70_one_iteration_suffices raw _ describes_raw data build_raw manageable.1 manageable.2 ideal trusted
    (fun _ => ideal_exact) eff (by decide +kernel) prepared prepare_ok (fun _ _ => rfl) (fun _ _ => rfl) scorable g hg assignable hone
  rcases C69_no_move_helps_the_worst_off raw _ describes_raw data build_raw manageable.1 manageable.2 ideal trusted
    (fun _ => ideal_exact) eff (by decide +kernel) prepared prepare_ok (fun _ _ => rfl) (fun _ _ => rfl) scorable (by decide +kernel) g hg
    (by decide +kernel) (by decide +kernel) with e | ⟨s, a, sd', x', h1, h2, h3, h4, _, h5⟩
  · rw [hre] at e; cases e
  · exact ⟨s, a, sd', x', h1, h2, h3, h4, fun n a' l m1 m2 m3 => h5 n a' l m1 m2 (unlinked n) m3⟩

/-- The printed scheduling has such moves: dancing joins swimming, or not. -/
example : SingleMove data [some 0, some 1, some 1, none] [some 0, some 1, some 1, some 0] ∧
    Placed data [some 0, some 1, some 1, some 0] ∧ Valid data [some 0, some 1, some 1, some 0] (fill [some 0, some 1, some 1, some 0]) := by
  have hn : data.nc = 4 := by decide +kernel
  have hns : data.ns = 2 := by decide +kernel
  refine ⟨⟨⟨hn.symm ▸ rfl, ?_⟩, 3, by decide +kernel, by decide, ?_⟩, by unfold Placed; decide +kernel, ?_⟩
  · intro c t h
    rw [hns]
    match c with
    | 0 => simp [slotAt] at h; omega
    | 1 => simp [slotAt] at h; omega
    | 2 => simp [slotAt] at h; omega
    | 3 => simp [slotAt] at h; omega
    | n + 4 => simp [slotAt] at h
  · intro c hc
    match c with
    | 0 => rfl
    | 1 => rfl
    | 2 => rfl
    | 3 => exact absurd rfl hc
    | n + 4 => rfl
  · refine (C01_feasibility_exact _ ?_ ?_ _ _ ⟨?_, ?_, ?_⟩ true ?_).1 rfl
    all_goals decide +kernel

end Wassign.ClimbEx
