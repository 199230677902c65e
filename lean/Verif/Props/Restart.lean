import Verif.Proofs.Restart
import Verif.Props.Attain
import Verif.Props.Session
/-
C78, continued: what the restarts are good for.
-/
namespace Wassign
open Spec Build Threaded Main Reader Hill Search

section
variable (i : InputData) (hw : WF i) (hz : Sizes i) (hr : SearchReady i) (hno : ∀ c ∈ i.choices, c.isOptional = false) (hself : NoSelf i)
  (hmin : MinimaSmall i) (hnc : 0 < i.nc)
  (sets : Nat → List CriticalSet) (hcs : ∀ l, ∀ set ∈ sets l, ∀ e ∈ set.data, e < i.nc)
include hw hz hr hno hself hmin hnc hcs

theorem source_ordered {orders : Nat → List Nat} (ho : ∀ k, HandlingOrder i (orders k)) {bound : Nat} {csTimeout : Int} (hct : 0 ≤ csTimeout)
    {late : Nat → Nat → Nat → Bool} (hl : ∀ n l k, late n l k = false) (k n : Nat) {s : Scheduling} (hf : FirstInOrder i [] (orders k) s)
    (hcov : ∀ l, l = bound ∨ l = i.maxPref → ∀ set ∈ sets l, CoversSlots i s set.data) :
    source (ordered i.nc orders) i csTimeout bound sets late (k, n) = .ok (some s, (k + 1, n + 1)) := by
  have hlaw := ordered_lawful hz.choices hnc (fun k => (ho k).1)
  have hst : ∀ s n, ((ordered i.nc orders).shuffle s n).2 = s := fun _ _ => rfl
  obtain ⟨v, hv, _⟩ := nextInRange_spec hlaw k 0 prefRelaxation (by decide) (by decide) (by decide) (by decide)
  have hs2 : ((ordered i.nc orders).sample k).2 = k + 1 := rfl
  rw [hs2] at hv
  have hfound : ∀ l, l = bound ∨ l = i.maxPref → ∃ slots, solve (ordered i.nc orders) i (sets l) (late n l) (k + 1) = .ok (.found slots, k + 1) ∧
      toScheduling i slots = .ok s := by
    intro l hlb
    obtain ⟨slots, r, h1, h2⟩ := C78_first_is_found (ordered i.nc orders) hlaw i hw hz hr (sets l) (hcs l) (late n l) (k + 1) hno hself hmin hnc
      (orders k) (by show (if i.nc = i.nc then orders (k + 1 - 1) else _) = orders k; rw [if_pos rfl]; rfl) (ho k) (hl n l) s hf (hcov l hlb)
    rw [solve_still hst h1] at h1
    exact ⟨slots, h1, h2⟩
  have hnext : nextScheduling (ordered i.nc orders) i bound sets (late n) k = .ok (some s, k + 1) := by
    unfold nextScheduling
    rw [hv, R.bind_ok]
    obtain ⟨slots, h1, h2⟩ := hfound (if v = 0 then i.maxPref else bound) (by split <;> simp)
    have hne : slots.isEmpty = false := by
      cases hsl : slots with
      | cons => rfl
      | nil =>
        exfalso
        rw [hsl] at h2
        have e : s = List.replicate i.nc none := by cases h2; rfl
        refine hf.valid.mandatory 0 hnc (hno _ (List.getElem_mem hnc)) ?_
        rw [e]
        unfold slotAt
        rw [List.getElem?_replicate, if_pos hnc]
        rfl
    have hlim : limitLoop (ordered i.nc orders) i sets (late n) (i.prefLevels.length + 2) (if v = 0 then i.maxPref else bound) (k + 1) =
        .ok (some slots, k + 1) := by
      rw [limitLoop, h1, R.bind_ok]
      simp only [Outcome.slots, hne]
      rfl
    simp only
    rw [hlim, R.bind_ok]
    simp only
    rw [h2, R.bind_ok]
    unfold Scheduling.withData
    rw [if_pos hf.shape.len]
    rfl
  unfold source
  simp only
  rw [hv, R.bind_ok, if_neg (by omega), hnext]
  rfl

/-- **C78**: nothing keeps the restarts from using any orders of the choices: for every sequence of orders there is a random engine with
which the `k`-th search finds the first scheduling of the `k`-th order (nothing being optional, and if it covers the critical sets of the
level at which the search begins: the preference bound or the greatest preference). -/
theorem C78_restarts_use_any_orders (bound : Nat) (orders : Nat → List Nat) (ho : ∀ k, HandlingOrder i (orders k)) (s : Nat → Scheduling)
    (hf : ∀ k, FirstInOrder i [] (orders k) (s k)) (hcov : ∀ k l, l = bound ∨ l = i.maxPref → ∀ set ∈ sets l, CoversSlots i (s k) set.data) :
    ∃ (g : RngOps Nat) (r0 : Nat), g.Lawful ∧ g.Varied i.nc i.nc ∧
      ∀ csTimeout : Int, 0 ≤ csTimeout → ∀ late : Nat → Nat → Nat → Bool, (∀ n l k, late n l k = false) →
        ∀ k, ∃ r, nthSearch (source g i csTimeout bound sets late) (r0, 0) k = .ok (some (s k), r) := by
  refine ⟨ordered i.nc orders, 0, ordered_lawful hz.choices hnc (fun k => (ho k).1), ordered_varied hnc orders, ?_⟩
  intro csTimeout hct late hl k
  have : nthSearch (source (ordered i.nc orders) i csTimeout bound sets late) (0, 0) k = .ok (some (s k), (k + 1, k + 1)) := by
    induction k with
    | zero => exact source_ordered i hw hz hr hno hself hmin hnc sets hcs ho hct hl 0 0 (hf 0) (hcov 0)
    | succ k ih =>
      unfold nthSearch
      rw [ih]
      exact source_ordered i hw hz hr hno hself hmin hnc sets hcs ho hct hl (k + 1) (k + 1) (hf (k + 1)) (hcov (k + 1))
  exact ⟨_, this⟩

end

/-! ### The program -/

section
variable {σ τ ρ : Type}

theorem nthSearch_dry {next : ρ → R (Option Scheduling × ρ)} {r r' : ρ} {m : Nat} (h : nthSearch next r m = .ok (none, r')) :
    ∀ k, m ≤ k → nthSearch next r k = .ok (none, r') := by
  intro k hk
  induction k with
  | zero => have : m = 0 := by omega
            subst this; exact h
  | succ k ih =>
    by_cases e : m = k + 1
    · subst e; exact h
    · unfold nthSearch
      rw [ih (by omega)]

/-- The `k`-th iteration of a worker climbs from what the `k`-th search has found. -/
theorem history_nth {pr : HProblem} {env : SEnv σ τ ρ} {Inv : τ → Prop} (hw : WF pr.input) (hm : pr.input.maxPref ≤ u32Max)
    (hg : env.rng.Lawful) (hA : Shaped pr.input env.asolve Inv) (hn : ∀ r s r', env.next r = .ok (some s, r') → SchedShape pr.input s)
    {dl : Bool} {r r' : ρ} {h h' : HState σ τ} {seen : List (Solution × Score)} (H : History pr env dl r h seen r' h') (hi : Inv h.asg) :
    Inv h'.asg ∧ (env.next r' = nthSearch env.next r seen.length ∨ ∃ m ≤ seen.length, ∃ r2, nthSearch env.next r m = .ok (none, r2)) ∧
    ∀ k s r2, k < seen.length → nthSearch env.next r k = .ok (some s, r2) →
      ∃ x h1 h2, x ∈ seen ∧ Inv h1.asg ∧ Hill.solve pr env.toHEnv dl h1 s = .ok (x.1, h2) ∧ pr.scoring.evaluate pr.input x.1 = .ok x.2 := by
  induction H with
  | none e =>
    obtain ⟨_, e2, _⟩ := e
    rw [← e2]
    exact ⟨hi, .inl rfl, by intro k s r2 hk; simp at hk⟩
  | dry a b ih =>
    obtain ⟨i1, i2, i3⟩ := ih hi
    refine ⟨i1, .inr ?_, i3⟩
    rcases i2 with e | e
    · exact ⟨_, Nat.le_refl _, _, by rw [← e]; exact b⟩
    · exact e
  | @more r1 r2 hh h1 h2 h3 seen x a b c ih =>
    obtain ⟨i1, i2, i3⟩ := ih hi
    obtain ⟨s, b1, b2, b3⟩ := b.out
    obtain ⟨_, c2, _⟩ := c
    obtain ⟨j1, _⟩ := solve_spec (F := fun _ => True) hw hm hg hA (fun _ _ _ => trivial) i1 (hn _ _ _ b1) trivial b2
    refine ⟨by rw [← c2]; exact j1, ?_, ?_⟩
    · rcases i2 with e | ⟨m, hm, e⟩
      · left
        rw [List.length_append, List.length_singleton]
        show _ = nthSearch env.next r (seen.length + 1)
        rw [nthSearch, ← e, b1]
      · exact .inr ⟨m, by rw [List.length_append]; omega, e⟩
    · intro k s' r3 hk hs'
      rw [List.length_append, List.length_singleton] at hk
      by_cases hlt : k < seen.length
      · obtain ⟨x', k1, k2, k3, k4⟩ := i3 k s' r3 hlt hs'
        exact ⟨x', k1, k2, List.mem_append_left _ k3, k4⟩
      · have : k = seen.length := by omega
        subst this
        rcases i2 with e | ⟨m, hm, r4, e⟩
        · rw [← e, b1] at hs'
          cases hs'
          exact ⟨x, h1, h2, by simp, i1, b2, b3⟩
        · rw [nthSearch_dry e _ hm] at hs'
          cases hs'

end

section
variable {F σ : Type}
variable (raw : Raw) (tr : List Reader.Event) (hdes : Describes tr raw) (d : InputData) (h : build raw = .ok d)
  (hr : ManageableRaw raw) (hd : Manageable d) (o : Outside F σ) (ho : Trusted o d.nc) (hx : ∀ tid, Exact (o.backend tid))
  (opts : Opts F) (hcs : 0 ≤ opts.csTimeout) (p : Prepared) (hp : Main.prepare o d opts = .ok p)
  (hl2 : ∀ tid t, o.lateAsg tid t = false) (hfin : Scorable p.scoring d)
  (g : Session σ ASolver (σ × Nat)) (hg : Run (setup o p opts) (Threaded.start (setup o p opts)) g)
include hdes h hr hd ho hx hcs hp hl2 hfin hg

/-- **C78** for the program without `--greedy`: every restart counts. If a worker has completed its `k`-th iteration and the `k`-th of its
scheduling searches found `s`, then the program prints a timetable, and if some valid assignment of `s` keeps everybody within a
preference level, then so does the printed one. -/
theorem C78_every_restart_counts (hgr : opts.greedy = false) (hpref : d.maxPref < 2 ^ 24)
    (tid : Nat) (w : Worker σ ASolver (σ × Nat)) (hw : g.workers[tid]? = some w) (k : Nat) (hk : k < w.st.progress.iterations)
    (s : Scheduling) (r : σ × Nat)
    (hs : nthSearch ((setup o p opts).env tid).next ((setup o p opts).init tid).sched k = .ok (some s, r)) (hlinks : LinksScheduled d s)
    (a' : Assignment) (hva : Valid d s a') :
    ∃ s1 a1 sched asg, SchedShape d s1 ∧ Valid d s1 a1 ∧ Placed d s1 ∧ report p g = .ok (.tables sched asg) ∧
      (∃ table, asg = csv table ∧ AssignmentTable d s1 a1 table) ∧
      ∀ l ∈ d.prefLevels, p.analysis.preferenceBound ≤ l → WithinLimit d a' l → WithinLimit d a1 l := by
  have hmax := fun q hq => ((described_fit hdes).1 q hq).2.1
  obtain ⟨m, written, hb⟩ := build_spec hmax h
  obtain ⟨hz, hnc', hns'⟩ := sizes_of_manageable hb hr hd
  have hcalm := C49_no_worker_panics raw d hmax h hr hd o ho opts hcs p hp g hg
  have hrep := report_ok hdes h ho.lawful hp hg hcalm
  obtain ⟨hin, hS⟩ := setup_wf hdes h ho.lawful hp
  have hscore : ∀ s a sc, SchedShape d s → Shape d s a → Valid d s a → p.scoring.evaluate d (.complete s a) = .ok sc →
      ∃ w mi, IsWorst d a w ∧ w ≤ d.maxPref ∧ F32.isFinite mi = true ∧ sc = ⟨F32.ofU32 w, mi⟩ := by
    intro s a sc hs hsh hv he
    obtain ⟨w, cnt, e1, e2, _, e3⟩ := evaluate_valid p.scoring hsh hz hb.wf hs.range hv
    obtain ⟨sc2, e4, e5⟩ := hfin s a hs hsh hv
    rw [he] at e3 e4
    cases e4
    injection e3 with e3
    cases hmf : (p.scoring.minorOf cnt).isFinite with
    | false => rw [hmf] at e3; simp only [Bool.false_eq_true, if_false] at e3; subst e3; exact absurd e5 (by decide)
    | true =>
      rw [hmf, prepare_scoring hp] at e3
      simp only [if_true, hgr, Bool.false_eq_true, if_false] at e3
      rw [prepare_scoring hp] at hmf
      exact ⟨w, _, e1, e2, hmf, e3⟩
  have hpp := hp
  unfold Main.prepare at hpp
  simp only [R.bind_eq_ok] at hpp
  obtain ⟨an, han, S, hSt, hpp⟩ := hpp
  obtain ⟨hok, hlev', hlast⟩ := problemOk_of_built raw d hmax h hd.nodes (asgProblem o p opts) (by cases hpp; rfl) (by cases hpp; exact hSt)
  subst hin
  have hnc : p.input.nc ≤ u32Max := by have := hz.choices; unfold i32Max at this; unfold u32Max; omega
  have hnp : p.input.np ≤ u32Max := by have := hz.choosers; unfold i32Max at this; unfold u32Max; omega
  have hmp : p.input.maxPref ≤ u32Max := Nat.le_of_lt hz.maxPref
  have hgr' : p.scoring.greedy = false := by rw [prepare_scoring hp]; exact hgr
  have hworkers := run_kept (cfg := setup o p opts)
    (P := fun tid st => Confined (setup o p opts).problem (CacheShape p.input) (fun _ => True) st)
    (fun tid => ⟨cacheShape_new _, .inl (by show Score.infinite.isFinite = false; decide)⟩)
    (fun tid k st st' hc he => by
      refine iterate_confined (pr := (setup o p opts).problem) (env := (setup o p opts).env tid) hb.wf hmp ho.lawful
        (shaped_any (asgProblem o p opts) (asgEnv o tid) true) (fun _ _ _ _ _ => trivial) ?_ 1 k st st' hc he
      intro r s r' e
      obtain ⟨e1, e2⟩ := Search.nextScheduling_feasible (source_next e)
      exact ⟨⟨e1, schedFeasible_range e1 e2⟩, trivial⟩)
    (fun tid st hc => hc) hg
  obtain ⟨sol, sc, hwait, hbest, seen, hhist, hall⟩ := C21_best_of_all_workers _ _ _ hS g hg hcalm
  obtain ⟨H, hlen⟩ := hhist tid w hw
  obtain ⟨q1, q2, q3⟩ := unclocked_backend (env := asgEnv o tid) (hx tid)
  have hA := untimed_shaped (env := asgEnv o tid) hok hlev' q1 (hl2 tid)
  have hnext : ∀ r s r', ((setup o p opts).env tid).next r = .ok (some s, r') → SchedShape p.input s ∧ SchedValid p.input s := by
    intro r s r' e
    obtain ⟨e1, e2⟩ := Search.nextScheduling_feasible (source_next e)
    exact ⟨⟨e1, schedFeasible_range e1 e2⟩, (schedFeasible_spec e1 hnc hnp hb.wf.sched e2).1 rfl⟩
  obtain ⟨_, _, hnth⟩ := history_nth (pr := (setup o p opts).problem) (env := (setup o p opts).env tid)
    (Inv := Untimed (asgProblem o p opts) (asgEnv o tid)) hb.wf hmp ho.lawful hA (fun r s r' e => (hnext r s r' e).1) H .new
  obtain ⟨x, h1, h2, hxm, hu, hsolve, hev⟩ := hnth k s r (by rw [hlen]; exact hk) hs
  have hshape : SchedShape p.input s ∧ SchedValid p.input s := by
    have : ∀ k r, nthSearch ((setup o p opts).env tid).next ((setup o p opts).init tid).sched k = .ok (some s, r) →
        SchedShape p.input s ∧ SchedValid p.input s := by
      intro k
      cases k with
      | zero => intro r e; exact hnext _ _ _ e
      | succ k =>
        intro r e
        unfold nthSearch at e
        split at e
        · exact hnext _ _ _ e
        · rename_i hno
          exact (hno _ _ e).elim
    exact this k r hs
  obtain ⟨hss, hsv⟩ := hshape
  have hav : AsgValid p.input s a' := ⟨hva.onePerSlot, hva.onlyScheduled, hva.bounds, hva.asg⟩
  obtain ⟨_, rr, t', sol0, sc0, lps, evs, _, k1, k2, k3, _, k5⟩ := Hill.solve_spec (pr := (setup o p opts).problem)
    (env := ((setup o p opts).env tid).toHEnv) (F := fun _ => True) hb.wf hmp ho.lawful hA (fun _ _ _ => trivial) hu hss trivial hsolve
  have k1' := solve_untimed (pr := asgProblem o p opts) (env := asgEnv o tid) (hl2 tid) k1
  cases rr with
  | none =>
    exact absurd hav (C08_none_means_none_partial (asgProblem o p opts) (unclocked (asgEnv o tid)) hok hlev' q1 true _ hu s hss hlinks
      q3 hlast _ k1' a')
  | some b =>
    obtain ⟨f1, f2⟩ := C06_solved_assignments_valid (asgProblem o p opts) (unclocked (asgEnv o tid)) hok hlev' q1 true _ hu s hss false b _ k1'
    have hvb : Valid p.input s b := ⟨hsv.cons, f2.asg, f2.onePerSlot, f2.onlyScheduled, f2.bounds⟩
    have hshb : Shape p.input s b := ⟨hss.len, f1.rows, f1.cols⟩
    obtain ⟨sc2, f3, f4⟩ := hfin s b hss hshb hvb
    simp only at k2
    subst k2
    have k3 : p.scoring.evaluate p.input (.complete s b) = .ok sc0 := k3
    obtain rfl : sc2 = sc0 := by
      rw [f3] at k3
      cases k3; rfl
    rcases k5 with ⟨k5, _⟩ | ⟨_, hg0, sc3, evs', hg3, _, hst⟩
    · rw [f4] at k5; cases k5
    have hx2 : x.2 = sc3 := by
      have := hg3.eval
      simp only at this
      rw [hev] at this
      cases this; rfl
    rw [← hx2] at hg3 hst
    have hrank : x.2.rank false ≤ sc2.rank false := by
      have := Stretch.rank_le hst
      simp only [show (setup o p opts).problem.scoring.greedy = false from hgr'] at this
      exact this
    have hm3 : x.2.InMode false := by have := hg3.mode; rw [show (setup o p opts).problem.scoring.greedy = false from hgr'] at this; exact this
    have hm0 : sc2.InMode false := by have := hg0.mode; rw [show (setup o p opts).problem.scoring.greedy = false from hgr'] at this; exact this
    have hxin : x ∈ (List.range g.workers.length).flatMap seen :=
      List.mem_flatMap.2 ⟨tid, List.mem_range.2 (List.getElem?_eq_some_iff.1 hw).1, hxm⟩
    rcases hall with ⟨_, e⟩ | ⟨_, hf, hle⟩
    · have := e x hxin
      rw [hg3.fin] at this; cases this
    rcases hrep with ⟨_, e⟩ | ⟨s1, a1, y, sched, hwait', hre, hs1, hv1, hpl1, ht1, _⟩
    · exfalso
      rcases hbest with ⟨e1, _⟩ | ⟨e1, _⟩
      · cases e1; exact absurd hf (by decide)
      · obtain ⟨w', hw', e2⟩ := List.mem_map.1 e1
        have := e w' hw'
        cases e2
        rw [hf] at this; cases this
    · refine ⟨s1, a1, sched, y, hs1, hv1, hpl1, hre, ht1, ?_⟩
      rw [hwait] at hwait'
      cases hwait'
      rcases hbest with ⟨e1, _⟩ | ⟨e1, _⟩
      · cases e1
      obtain ⟨w', hw', e2⟩ := List.mem_map.1 e1
      obtain ⟨tid', htid'⟩ := List.mem_iff_getElem?.1 hw'
      obtain ⟨_, hc⟩ := hworkers tid' w' htid'
      rcases hc with hc | hgood
      · have : w'.st.progress.bestScore = sc := congrArg Prod.snd e2
        rw [this, hf] at hc; cases hc
      rw [e2] at hgood
      obtain ⟨s2, a2, e, _, hsh1, _⟩ := hgood.whole
      cases e
      have hmode : sc.InMode false := by have := hgood.mode; rw [show (setup o p opts).problem.scoring.greedy = false from hgr'] at this; exact this
      have hlex : x.2.le sc2 := by
        intro hgt
        have hlt : Score.lt sc2 x.2 = true := by
          unfold Score.lt
          rw [← Score.cmp_swap, hgt]; rfl
        have := (Score.lt_rank hm0 hm3 hg3.fin hlt).2
        omega
      have hlesc : sc.le sc2 := Score.le_trans hmode hm3 hm0 (hle x hxin) hlex
      intro l hl hbl hwl
      obtain ⟨l0, _, hw0, hleast⟩ := C10_least_level_partial (asgProblem o p opts) (unclocked (asgEnv o tid)) hok hlev' q1 hgr q3 _ hu s hss hlinks
        b _ k1'
      have hl0 := hleast l hl hbl a' hav hwl
      obtain ⟨wb, mb, hwb, _, hmb, e5⟩ := hscore s b sc2 hss hshb hvb f3
      obtain ⟨wa, ma, hwa, hwam, hma, e6⟩ := hscore s1 a1 sc hs1 hsh1 hv1 hgood.eval
      have hwle : wa ≤ wb := by
        by_contra hcon
        have := (C39_worst_preference_first wb wa mb ma (by omega) hmb hma (by omega)).1
        rw [← e5, ← e6] at this
        apply hlesc
        rw [← Score.cmp_swap, this]; rfl
      intro pp c y y1 y2
      have h3 : y ≤ wa := hwa.upper pp c y y1 y2
      have h4 : wb ≤ l := by
        rcases hwb.attained with e | ⟨p2, c2, g1, g2⟩
        · omega
        · exact Nat.le_trans (hw0 p2 c2 wb g1 g2) hl0
      omega

end

/-! ### Enough time -/

section
variable {σ τ ρ : Type} {cfg : Setup σ τ ρ} {Inv : τ → Prop} {InvR Q : ρ → Prop}

theorem Run.trans {g g' g'' : Session σ τ ρ} (h1 : Run cfg g g') (h2 : Run cfg g' g'') : Run cfg g g'' := by
  induction h2 with
  | refl => exact h1
  | step _ s ih => exact ih.step s

/-- One worker goes through any number of iterations while the others wait. -/
theorem run_iterations (hany : cfg.any = false) (hns : cfg.problem.input.ns ≠ 1) (hW : WorkerTotal cfg.problem (cfg.env 0) Inv InvR)
    (hlate : ∀ t, (cfg.env 0).lateS t = false) (hQ : ∀ r, Q r → ∃ s r', (cfg.env 0).next r = .ok (some s, r') ∧ Q r')
    (h0 : Inv (cfg.init 0).hill.asg ∧ InvR (cfg.init 0).sched ∧ Q (cfg.init 0).sched ∧ (cfg.init 0).progress.iterations = 0) :
    ∀ n, ∃ g, Run cfg (Threaded.start cfg) g ∧ g.cancelled = false ∧ (∀ w ∈ g.workers, w.phase = .check) ∧
      ∃ w, g.workers[0]? = some w ∧ Inv w.st.hill.asg ∧ InvR w.st.sched ∧ Q w.st.sched ∧ w.st.progress.iterations = n := by
  intro n
  induction n with
  | zero =>
    refine ⟨_, .refl _, rfl, ?_, ⟨.check, cfg.init 0, 0⟩, ?_, h0⟩
    · intro w hw
      obtain ⟨j, _, e⟩ := List.mem_map.1 hw
      rw [← e]
    · show ((List.range (workerCount cfg)).map _)[0]? = _
      have : 0 < workerCount cfg := by unfold workerCount; split <;> omega
      rw [List.getElem?_map, List.getElem?_range this]
      rfl
  | succ n ih =>
    obtain ⟨g, hrun, hc, hall, w, hw, i1, i2, i3, i4⟩ := ih
    have hph : w.phase = .check := hall w (List.mem_of_getElem? hw)
    have hlt := (List.getElem?_eq_some_iff.1 hw).1
    obtain ⟨k, st, hit, j1, j2⟩ := iterate_total hW true 1 w.st i1 i2
    obtain ⟨s, r', hn, hq⟩ := hQ _ i3
    obtain ⟨hk, hsched, hiter⟩ : k = 1 ∧ st.sched = r' ∧ st.progress.iterations = n + 1 := by
      unfold Shotgun.iterate at hit
      have hclk : Shotgun.clock (cfg.env 0) true w.st = (false, { w.st with ticks := w.st.ticks + 1 }) := by
        unfold Shotgun.clock
        rw [if_pos rfl, hlate]
      simp only [hclk, Bool.false_eq_true, if_false] at hit
      rw [hn, R.bind_ok] at hit
      simp only [Shotgun.iterate, R.bind_eq_ok] at hit
      obtain ⟨_, _, _, _, _, hr, hit⟩ := hit
      cases hr
      cases hit
      refine ⟨rfl, ?_, ?_⟩
      · show (Shotgun.record _ _ _ _).sched = r'
        unfold Shotgun.record; split <;> rfl
      · show (Shotgun.record _ _ _ _).progress.iterations + 1 = n + 1
        rw [← i4]
        unfold Shotgun.record; split <;> rfl
    have m1 := Move.check (cfg := cfg) g 0 w false hw hph
    have e1 : checkStep g.cancelled false w = { w with
        phase := .run
        started := w.started + 1 } := by unfold checkStep; rw [hc]; rfl
    rw [e1] at m1
    have m2 := Move.run (cfg := cfg) { g with workers := g.workers.set 0 { w with
        phase := .run
        started := w.started + 1 } } 0 { w with
        phase := .run
        started := w.started + 1 } (List.getElem?_set_self hlt) rfl
    have e2 : runStep cfg 0 { w with
        phase := .run
        started := w.started + 1 } = ⟨.test k, st, w.started + 1⟩ := by
      unfold runStep
      simp only [hit]
    rw [e2] at m2
    simp only [List.set_set] at m2
    have m3 := Move.test (cfg := cfg) { g with workers := g.workers.set 0 ⟨.test k, st, w.started + 1⟩ } 0 k ⟨.test k, st, w.started + 1⟩
      (List.getElem?_set_self hlt) rfl
    have e3 : testStep cfg 0 k ⟨.test k, st, w.started + 1⟩ = (false, ⟨.check, st, w.started + 1⟩) := by
      unfold testStep
      simp only [hany, Bool.false_eq_true, if_false, Bool.false_and]
      rw [if_neg (by omega)]
    rw [e3] at m3
    simp only [List.set_set, hc, Bool.or_false] at m3
    refine ⟨_, ((hrun.step (.move m1)).step (.move m2)).step (.move (by simpa only [hc] using m3)), rfl, ?_, ⟨.check, st, w.started + 1⟩, List.getElem?_set_self hlt, j1, j2, ?_, hiter⟩
    · intro w' hw'
      rcases List.mem_or_eq_of_mem_set hw' with e | e
      · exact hall w' e
      · rw [e]
    · rw [hsched]; exact hq

/-- When the user cancels, waiting workers finish. -/
theorem run_over {g : Session σ τ ρ} (hall : ∀ w ∈ g.workers, w.phase = .check) :
    ∃ g', Run cfg g g' ∧ g'.over ∧ ∀ (j : Nat) w, g.workers[j]? = some w → ∃ w', g'.workers[j]? = some w' ∧ w'.st = w.st := by
  have key : ∀ m, m ≤ g.workers.length → ∃ g', Run cfg g g' ∧ g'.cancelled = true ∧ g'.workers.length = g.workers.length ∧
      ∀ (j : Nat) w, g.workers[j]? = some w → ∃ w', g'.workers[j]? = some w' ∧ w'.st = w.st ∧
        if j < m then w'.phase = .finished else w'.phase = .check := by
    intro m
    induction m with
    | zero =>
      intro _
      refine ⟨{ g with cancelled := true }, (Run.refl _).step (.cancel g), rfl, rfl, ?_⟩
      intro j w hj
      exact ⟨w, hj, rfl, by rw [if_neg (by omega)]; exact hall w (List.mem_of_getElem? hj)⟩
    | succ m ih =>
      intro hm
      obtain ⟨g', h1, h2, h3, h4⟩ := ih (by omega)
      have hlt : m < g.workers.length := by omega
      obtain ⟨w', e1, e2, e3⟩ := h4 m _ (List.getElem?_eq_getElem hlt)
      rw [if_neg (by omega)] at e3
      have mv := Move.check (cfg := cfg) g' m w' false e1 e3
      refine ⟨_, h1.step (.move mv), h2, by simp [h3], ?_⟩
      intro j w hj
      by_cases e : j = m
      · subst e
        rw [List.getElem?_eq_getElem hlt] at hj
        cases hj
        refine ⟨checkStep g'.cancelled false w', List.getElem?_set_self (by omega), ?_, ?_⟩
        · unfold checkStep; rw [h2]; exact e2
        · rw [if_pos (by omega)]; unfold checkStep; rw [h2]; rfl
      · obtain ⟨w2, f1, f2, f3⟩ := h4 j w hj
        refine ⟨w2, ?_, f2, ?_⟩
        · show (g'.workers.set m _)[j]? = _
          rw [List.getElem?_set_ne (fun h => e h.symm)]; exact f1
        · split
          · rw [if_pos (by omega)] at f3; exact f3
          · rw [if_neg (by omega)] at f3; exact f3
  obtain ⟨g', h1, _, h3, h4⟩ := key g.workers.length (Nat.le_refl _)
  refine ⟨g', h1, ?_, fun j w hj => ?_⟩
  · intro w hw
    obtain ⟨j, hj⟩ := List.mem_iff_getElem?.1 hw
    have hlt : j < g.workers.length := by rw [← h3]; exact (List.getElem?_eq_some_iff.1 hj).1
    obtain ⟨w', e1, _, e3⟩ := h4 j _ (List.getElem?_eq_getElem hlt)
    rw [if_pos hlt] at e3
    rw [hj] at e1
    cases e1
    exact .inl e3
  · obtain ⟨w', e1, e2, _⟩ := h4 j w hj
    exact ⟨w', e1, e2⟩

end

section
variable {F σ : Type}

/-- **C78** for the program: with a suitable random engine and enough time, the program does at least as well for the worst-off as any number of given
schedulings allow, if each of them comes first in some order of the choices and covers the critical sets of the level at which the searches begin. The schedulings may be arbitrarily
many; nothing but the random engine and the clock is chosen. -/
theorem C78_enough_time (raw : Raw) (tr : List Reader.Event) (hdes : Describes tr raw) (d : InputData) (h : build raw = .ok d)
    (hr : ManageableRaw raw) (hd : Manageable d) (hno : ∀ c ∈ d.choices, c.isOptional = false) (hself : NoSelf d) (hmin : MinimaSmall d)
    (hnc : 0 < d.nc) (hns : d.ns ≠ 1) (o : Outside F σ) (hb' : ∀ tid, Backend.Sound (o.backend tid)) (hx : ∀ tid, Exact (o.backend tid))
    (opts : Opts F) (hcs : 0 ≤ opts.csTimeout) (hgr : opts.greedy = false) (hany : opts.any = false) (hpref : d.maxPref < 2 ^ 24)
    (p : Prepared) (hp : Main.prepare o d opts = .ok p) (hfin : Scorable p.scoring d)
    (orders : Nat → List Nat) (hord : ∀ k, HandlingOrder d (orders k)) (s : Nat → Scheduling)
    (hf : ∀ k, FirstInOrder d [] (orders k) (s k))
    (hcov : ∀ k l, l = p.analysis.preferenceBound ∨ l = d.maxPref → ∀ set ∈ p.analysis.forPreference l, CoversSlots d (s k) set.data) :
    ∃ o' : Outside F Nat, (o'.opt = o.opt ∧ o'.powf = o.powf ∧ o'.toF32 = o.toF32 ∧ o'.cost = o.cost ∧ o'.backend = o.backend) ∧
      Main.prepare o' d opts = .ok p ∧
      ∀ n, ∃ g, Run (setup o' p opts) (Threaded.start (setup o' p opts)) g ∧ g.over ∧
        ∀ k, k < n → LinksScheduled d (s k) → ∀ a, Valid d (s k) a →
          ∃ s1 a1 sched asg, SchedShape d s1 ∧ Valid d s1 a1 ∧ Placed d s1 ∧ report p g = .ok (.tables sched asg) ∧
            (∃ table, asg = csv table ∧ AssignmentTable d s1 a1 table) ∧
            ∀ l ∈ d.prefLevels, p.analysis.preferenceBound ≤ l → WithinLimit d a l → WithinLimit d a1 l := by
  have hmax := fun q hq => ((described_fit hdes).1 q hq).2.1
  obtain ⟨m, written, hb⟩ := build_spec hmax h
  obtain ⟨hz, hnc', hns'⟩ := sizes_of_manageable hb hr hd
  have hready : SearchReady d := ready_of_built hb hr.numbers hnc' hns'
  let o' : Outside F Nat := ⟨o.opt, o.powf, o.toF32, o.cost, ordered d.nc orders, fun _ => 0, o.seed, d.nc, o.backend, fun _ _ => false,
    fun _ _ => false, fun _ _ => false, fun _ _ _ _ => false⟩
  have hp' : Main.prepare o' d opts = .ok p := hp
  have ho' : Trusted o' d.nc := ⟨ordered_lawful hz.choices hnc (fun k => (hord k).1), ordered_varied hnc orders, hb'⟩
  have hin : p.input = d := (setup_wf hdes h ho'.lawful hp').1
  have hsets : ∀ l, ∀ set ∈ p.analysis.forPreference l, ∀ e ∈ set.data, e < d.nc := by
    have hpp := hp
    unfold Main.prepare at hpp
    simp only [R.bind_eq_ok] at hpp
    obtain ⟨an, han, S, hS, hpp⟩ := hpp
    have hanp : p.analysis = an := by cases hpp; rfl
    obtain ⟨hlev, _, hmem, _⟩ := C26_levels_partial raw d hmax h
    obtain ⟨A, hA, hA1, hA2⟩ := analysis_total hb.wf hz hlev (!opts.noCs && !opts.greedy && decide (1 < d.ns))
      ((!opts.noCs && !opts.greedy && decide (1 < d.ns)) && !opts.noCsSimp)
    rw [hanp]
    rw [hA] at han
    cases han
    exact hA2
  have hsrc : ∀ tid k, ((setup o' p opts).env tid).next (k, k) = .ok (some (s k), (k + 1, k + 1)) := by
    intro tid k
    show source (ordered d.nc orders) p.input opts.csTimeout p.analysis.preferenceBound p.analysis.forPreference _ (k, k) = _
    rw [hin]
    exact source_ordered d hb.wf hz hready hno hself hmin hnc _ hsets hord hcs (fun _ _ _ => rfl) k k (hf k) (hcov k)
  have hnth : ∀ tid k, nthSearch ((setup o' p opts).env tid).next ((setup o' p opts).init tid).sched k = .ok (some (s k), (k + 1, k + 1)) := by
    intro tid k
    induction k with
    | zero => exact hsrc tid 0
    | succ k ih => unfold nthSearch; rw [ih]; exact hsrc tid (k + 1)
  refine ⟨o', ⟨rfl, rfl, rfl, rfl, rfl⟩, hp', fun n => ?_⟩
  have hW := worker_total hmax h hr hd ho' hcs hp' 0
  obtain ⟨g, hg, _, hall, w, hw, _, _, _, hit⟩ := run_iterations (cfg := setup o' p opts) (Q := fun r => ∃ k, r = (k, k)) hany
    (by show p.input.ns ≠ 1; rw [hin]; exact hns) hW (fun _ => rfl)
    (by rintro r ⟨k, rfl⟩; exact ⟨_, _, hsrc 0 k, k + 1, rfl⟩) ⟨⟨true, .new⟩, trivial, ⟨0, rfl⟩, rfl⟩ n
  obtain ⟨g', hg', hov, hsame⟩ := run_over (cfg := setup o' p opts) hall
  obtain ⟨w', hw', hst⟩ := hsame 0 w hw
  refine ⟨g', Run.trans hg hg', hov, ?_⟩
  intro k hk hlinks a hva
  exact C78_every_restart_counts raw tr hdes d h hr hd o' ho' hx opts hcs p hp' (fun _ _ => rfl) hfin g' (Run.trans hg hg') hgr hpref 0 w' hw' k
    (by rw [hst, hit]; exact hk) (s k) _ (hnth 0 k) hlinks a hva

end

end Wassign
